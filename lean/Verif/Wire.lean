import Verif.Shape
/-
The calls that the encoder makes, once more: the text outside of literals is valid UTF-8, and 7-bit text without `QuotedUtf8`. This follows
Verif/Shape.lean line by line, with another property of the text.
-/
set_option maxRecDepth 10000
set_option linter.unusedSectionVars false

namespace Imap.Wire

open Imap Imap.Spec

/-- Bytes from 1 to 127. -/
def isPlain (bs : Bytes) : Bool := bs.all fun b => decide (0 < b.toNat) && decide (b.toNat < 128)

/-- A property of text that 7-bit text has, that survives concatenation, and that the encoding of `QuotedUtf8` has. -/
class Closed [q : Quirks] where
  P : Bytes → Prop
  plain : ∀ {bs : Bytes}, isPlain bs = true → P bs
  append : ∀ {xs ys : Bytes}, P xs → P ys → P (xs ++ ys)
  utf8 : ∀ {s : Bytes}, q.extUtf8 = true → isUtf8 s = true → P (b!"\"" ++ escapeQuoted s ++ b!"\"")

def AnyBytes (_ : Bytes) : Prop := True

variable [Quirks] [Closed]

def SafeAt (bs : Bytes) : Prop := Closed.P bs

theorem isPlain_of_forall {bs : Bytes} (h : ∀ b ∈ bs, 0 < b.toNat ∧ b.toNat < 128) : isPlain bs = true :=
  List.all_eq_true.2 fun b hb => by simp [h b hb]

theorem isPlain_append {xs ys : Bytes} (hx : isPlain xs = true) (hy : isPlain ys = true) : isPlain (xs ++ ys) = true := by
  simp only [isPlain, List.all_append, Bool.and_eq_true] at *
  exact ⟨hx, hy⟩

theorem isPlain_quoted {s : Bytes} (h : isPlain s = true) : isPlain (b!"\"" ++ escapeQuoted s ++ b!"\"") = true := by
  refine isPlain_append (isPlain_append rfl (isPlain_of_forall fun b hb => ?_)) rfl
  replace h : ∀ b ∈ s, 0 < b.toNat ∧ b.toNat < 128 := fun b hb => by simpa [isPlain] using List.all_eq_true.1 h b hb
  rcases mem_replace1 hb with hb | hb
  · exact (by decide : ∀ b ∈ b!"\\\"", 0 < b.toNat ∧ b.toNat < 128) b hb
  · rcases mem_replace1 hb with hb | hb
    · exact (by decide : ∀ b ∈ b!"\\\\", 0 < b.toNat ∧ b.toNat < 128) b hb
    · exact h b hb

theorem SafeAt.of {bs : Bytes} (h : isPlain bs = true) : SafeAt bs := Closed.plain h
theorem SafeAt.append {xs ys : Bytes} (hx : SafeAt xs) (hy : SafeAt ys) : SafeAt (xs ++ ys) := Closed.append hx hy
theorem SafeAt.unbroken {bs : Bytes} (h : SafeAt bs) : SafeAt bs := h
theorem weaken {ws : List W} (h : Shaped (SafeAt) AnyBytes ws) : Shaped (SafeAt) AnyBytes ws := h

theorem isPlain_class {c : UInt8 → Bool} (key : ∀ b : UInt8, c b = true → 0 < b.toNat ∧ b.toNat < 128) {s : Bytes} (h : ∀ b ∈ s, c b = true) :
    isPlain s = true := isPlain_of_forall fun b hb => key b (h b hb)

theorem isPlain_nat (n : Nat) : isPlain (showNat n) = true :=
  isPlain_class (forall_byte (by decide)) (List.all_eq_true.1 (showNat_digits n))
theorem SafeAt.nat (n : Nat) : SafeAt (showNat n) := .of (isPlain_nat n)

theorem SafeAt.b64 (d : Bytes) : SafeAt (b64Encode d) := .of <| by
  obtain ⟨cs, pad, h1, h2, h3⟩ := b64Encode_shape d
  rw [h1]
  refine isPlain_append (isPlain_class (forall_byte (by decide)) (List.all_eq_true.1 h2)) ?_
  rcases h3 with rfl | rfl | rfl <;> rfl

theorem isPlain_atom {s : Bytes} (h : IsAtom s) : isPlain s = true :=
  isPlain_class (c := isAtomChar) (forall_byte (by decide)) fun b hb => (atomChar_iff b).2 (h.2 b hb)
theorem SafeAt.atom {s : Bytes} (h : IsAtom s) : SafeAt s := .of (isPlain_atom h)
theorem SafeAt.astringChars {s : Bytes} (h : Str1 AStringChar s) : SafeAt s :=
  .of <| isPlain_class (c := isAStringChar) (forall_byte (by decide)) fun b hb => (aStringChar_iff b).2 (h.2 b hb)
theorem SafeAt.tag {s : Bytes} (h : Tag.Inv s) : SafeAt s := SafeAt.astringChars ⟨h.1, fun b hb => (h.2 b hb).1⟩
theorem SafeAt.listChars {s : Bytes} (h : Str1 ListChar s) : SafeAt s :=
  .of <| isPlain_class (c := isListChar) (forall_byte (by decide)) fun b hb => (listChar_iff b).2 (h.2 b hb)
theorem text_plain {s : Bytes} (h : ∀ b ∈ s, TextChar b) : isPlain s = true :=
  isPlain_class (c := isTextChar) (forall_byte (by decide)) fun b hb => (textChar_iff b).2 (h b hb)
theorem SafeAt.quoted {s : Bytes} (h : isPlain s = true) : SafeAt (b!"\"" ++ escapeQuoted s ++ b!"\"") := .of (isPlain_quoted h)

theorem shaped_uid {u : Bool} {name : Bytes} {ws : List W} (hn : SafeAt name) (h : Shaped SafeAt AnyBytes ws) :
    Shaped SafeAt AnyBytes (encUid u name :: ws) := by
  refine .wr ?_ h
  split
  · exact SafeAt.append (.of rfl) hn
  · exact hn

/-- Splits the calls into text and the parts for which there are hypotheses. -/
macro "shape" : tactic => `(tactic| repeat' first
  | with_reducible assumption
  | with_reducible exact Shaped.nil
  | with_reducible exact SafeAt.nat _
  | with_reducible exact SafeAt.nat _
  | with_reducible apply shaped_uid
  | with_reducible apply Shaped.append
  | with_reducible apply Shaped.wr
  | exact SafeAt.of rfl
  | exact SafeAt.of rfl)

/-! ### Strings -/

theorem Literal.shaped {l : Literal} (h : Literal.Inv .inv l) : Shaped SafeAt AnyBytes l.enc := by
  obtain ⟨d, m⟩ := l
  have h' (m : Mode) := Shaped.lit (a := []) (d := d) (m := m) (p := SafeAt) (q := AnyBytes) (.of rfl) trivial .nil
  cases m
  · exact h' .sync
  · exact h' .nonSync

theorem Literal8.shaped {l : Literal8} (h : Literal8.Inv .inv l) : Shaped SafeAt AnyBytes l.enc := by
  obtain ⟨d, m⟩ := l
  have h' (m : Mode) := Shaped.lit (a := b!"~") (d := d) (m := m) (p := SafeAt) (q := AnyBytes) (.of rfl) trivial .nil
  cases m
  · exact h' .sync
  · exact h' .nonSync

theorem IString.shaped {s : IString} (h : IString.Inv .inv s) : Shaped SafeAt AnyBytes s.enc := by
  cases s with
  | literal l => exact Literal.shaped h
  | quoted s => exact .one (SafeAt.quoted (text_plain h))
  | quotedUtf8 s =>
    exact .one (Closed.utf8 h.1 h.2.1)

theorem NString.shaped {s : NString} (h : NString.Inv .inv s) : Shaped SafeAt AnyBytes (encNString s) := by
  cases s with
  | none => exact .one (.of rfl)
  | some s => exact IString.shaped (h s rfl)

theorem AString.shaped {s : AString} (h : AString.Inv .inv s) : Shaped SafeAt AnyBytes s.enc := by
  cases s with
  | atom s => exact .one (SafeAt.astringChars h)
  | string s => exact IString.shaped h

theorem Charset.shaped {s : Charset} (h : Charset.Inv s) : Shaped SafeAt AnyBytes s.enc := by
  cases s with
  | atom s => exact .one (SafeAt.atom h)
  | quoted s => exact .one (SafeAt.quoted (text_plain h))

theorem LiteralOrLiteral8.shaped {s : LiteralOrLiteral8} (h : LiteralOrLiteral8.Inv .inv s) : Shaped SafeAt AnyBytes s.enc := by
  cases s with
  | literal l => exact Literal.shaped h
  | literal8 l => exact Literal8.shaped h

theorem NString8.shaped {s : NString8} (h : NString8.Inv .inv s) : Shaped SafeAt AnyBytes s.enc := by
  cases s with
  | nstring s => exact NString.shaped h
  | literal8 l => exact Literal8.shaped h

/-! ### Parts -/

theorem SeqOrUid.shaped (s : SeqOrUid) : Shaped SafeAt AnyBytes s.enc := by
  cases s <;> exact .one (by first | exact SafeAt.nat _ | exact .of rfl)

theorem Sequence.shaped (s : Sequence) : Shaped SafeAt AnyBytes s.enc := by
  unfold Imap.Sequence.enc
  split
  · exact SeqOrUid.shaped _
  · exact ((SeqOrUid.shaped _).append (.one (.of rfl))).append (SeqOrUid.shaped _)

theorem SequenceSet.shaped (s : SequenceSet) : Shaped SafeAt AnyBytes (encSet s) :=
  Shaped.joinMap (.of rfl) fun q _ => Sequence.shaped q

theorem digits_plain {n : Nat} (h : n < 10) : 0 < (UInt8.ofNat (48 + n)).toNat ∧ (UInt8.ofNat (48 + n)).toNat < 128 := by
  have : ∀ n : Fin 10, 0 < (UInt8.ofNat (48 + n.1)).toNat ∧ (UInt8.ofNat (48 + n.1)).toNat < 128 := by decide
  exact this ⟨n, h⟩

theorem show2_inner {n : Nat} (h : n < 100) : isPlain (show2 n) = true := by
  refine isPlain_of_forall fun b hb => ?_
  simp only [show2, List.mem_cons, List.not_mem_nil, or_false] at hb
  rcases hb with rfl | rfl <;> exact digits_plain (by omega)

theorem show4_inner {n : Nat} (h : n < 10000) : isPlain (show4 n) = true := by
  refine isPlain_of_forall fun b hb => ?_
  simp only [show4, List.mem_cons, List.not_mem_nil, or_false] at hb
  rcases hb with rfl | rfl | rfl | rfl <;> exact digits_plain (by omega)

theorem month_inner (n : Nat) : isPlain (monthName n) = true := by
  unfold monthName
  split <;> rfl

theorem isPlain_dquoted {s : Bytes} (h : isPlain s = true) : isPlain (b!"\"" ++ s ++ b!"\"") = true := isPlain_append (isPlain_append rfl h) rfl

theorem showDate_inner {d : NaiveDate} (h : NaiveDate.Inv d) : isPlain (showDate d) = true := by
  have : monthDays d.year d.month ≤ 31 := by unfold monthDays; split_ifs <;> omega
  obtain ⟨h1, h2, h3, h4, h5⟩ := h
  exact isPlain_append (isPlain_append (isPlain_append (isPlain_append (show2_inner (by omega)) rfl)
    (month_inner _)) rfl) (show4_inner (by omega))

theorem NaiveDate.shaped {d : NaiveDate} (h : NaiveDate.Inv d) : Shaped SafeAt AnyBytes d.enc :=
  .one <| .of <| isPlain_dquoted (showDate_inner h)

theorem showZone_inner {o : Int} (h1 : -86400 < o) (h2 : o < 86400) : isPlain (showZone o) = true := by
  refine isPlain_append (isPlain_append ?_ (show2_inner (by omega))) (show2_inner (by omega))
  split <;> rfl

theorem DateTime.shaped {t : DateTime} (h : DateTime.Inv t) : Shaped SafeAt AnyBytes t.enc := by
  obtain ⟨h1, h2, h3, h4, h5, h6, _⟩ := h
  refine .one (.of ?_)
  have key : isPlain (showDate t.date ++ b!" " ++ show2 t.hour ++ b!":" ++ show2 t.minute ++ b!":" ++ show2 t.second ++ b!" " ++
      showZone t.offset) = true := by
    refine isPlain_append ?_ (showZone_inner h5 h6)
    refine isPlain_append ?_ rfl
    refine isPlain_append ?_ (show2_inner (by omega))
    refine isPlain_append ?_ rfl
    refine isPlain_append ?_ (show2_inner (by omega))
    refine isPlain_append ?_ rfl
    refine isPlain_append ?_ (show2_inner (by omega))
    exact isPlain_append (showDate_inner h1) rfl
  simpa using isPlain_dquoted key

theorem Flag.shaped {f : Flag} (h : Flag.Inv f) : Shaped SafeAt AnyBytes f.enc := by
  cases f with
  | extension s => exact .one (SafeAt.append (.of rfl) (SafeAt.atom h.1))
  | keyword s => exact .one (SafeAt.atom h)
  | _ => exact .one (.of rfl)

theorem FlagFetch.shaped {f : FlagFetch} (h : FlagFetch.Inv .inv f) : Shaped SafeAt AnyBytes f.enc := by
  cases f with
  | flag f => exact Flag.shaped h.1
  | recent => exact .one (.of rfl)

theorem FlagPerm.shaped {f : FlagPerm} (h : FlagPerm.Inv f) : Shaped SafeAt AnyBytes f.enc := by
  cases f with
  | flag f => exact Flag.shaped h
  | asterisk => exact .one (.of rfl)

theorem FlagNameAttribute.shaped {f : FlagNameAttribute} (h : FlagNameAttribute.Inv f) : Shaped SafeAt AnyBytes f.enc := by
  cases f with
  | extension s => exact .one (SafeAt.append (.of rfl) (SafeAt.atom h.1))
  | _ => exact .one (.of rfl)

theorem Mailbox.shaped {m : Mailbox} (h : Mailbox.Inv .inv m) : Shaped SafeAt AnyBytes m.enc := by
  cases m with
  | inbox => exact .one (.of rfl)
  | other s => exact AString.shaped h.1

theorem ListMailbox.shaped {m : ListMailbox} (h : ListMailbox.Inv .inv m) : Shaped SafeAt AnyBytes m.enc := by
  cases m with
  | token s => exact .one (SafeAt.listChars h)
  | string s => exact IString.shaped h

theorem AuthMechanism.safe {m : AuthMechanism} (h : AuthMechanism.Inv .inv m) : SafeAt m.name := by
  cases m with
  | other s => exact SafeAt.atom h.1
  | _ => exact .of rfl

theorem StatusDataItemName.shaped (x : StatusDataItemName) : Shaped SafeAt AnyBytes x.enc := by
  cases x <;> exact .one (.of rfl)

/-! ### Fetch -/

theorem part_shaped (p : List NzU32) : Shaped SafeAt AnyBytes (encPart p) := Shaped.joinMap (.of rfl) fun n _ => .one (SafeAt.nat n)

theorem partDot_shaped (p : Option (List NzU32)) : Shaped SafeAt AnyBytes (encPartDot p) := by
  cases p with
  | none => exact .nil
  | some p => exact (part_shaped p).append (.one (.of rfl))

theorem partial_shaped (p : Option (Nat × NzU32)) : Shaped SafeAt AnyBytes (encPartial p) := by
  cases p with
  | none => exact .nil
  | some p => unfold encPartial; shape

theorem Section.shaped {s : Section} (h : Section.Inv .inv s) : Shaped SafeAt AnyBytes s.enc := by
  have hp := part_shaped 
  have hd := partDot_shaped 
  cases s with
  | part p => exact hp p
  | header p => have := hd p; unfold Imap.Section.enc; shape
  | headerFields p fs =>
    have := hd p
    have h2 := Shaped.joinMap (p := SafeAt) (q := AnyBytes) (sep := b!" ") (.of rfl) fun a ha => AString.shaped (h.2.2 a ha)
    unfold Imap.Section.enc
    shape
  | headerFieldsNot p fs =>
    have := hd p
    have h2 := Shaped.joinMap (p := SafeAt) (q := AnyBytes) (sep := b!" ") (.of rfl) fun a ha => AString.shaped (h.2.2 a ha)
    unfold Imap.Section.enc
    shape
  | text p => have := hd p; unfold Imap.Section.enc; shape
  | mime p => have := hp p; unfold Imap.Section.enc; shape

theorem sectionOpt_shaped {s : Option Section} (h : Opt (Section.Inv .inv) s) : Shaped SafeAt AnyBytes (encSectionOpt s) := by
  cases s with
  | none => exact .nil
  | some s => exact Section.shaped (h s rfl)

theorem MessageDataItemName.shaped {x : MessageDataItemName} (h : MessageDataItemName.Inv .inv x) : Shaped SafeAt AnyBytes x.enc := by
  cases x with
  | bodyExt s p k =>
    have h1 := sectionOpt_shaped h.1
    have h2 := partial_shaped  p
    cases k <;> unfold Imap.MessageDataItemName.enc <;> shape
  | binary s p k =>
    have h1 := part_shaped  s
    have h2 := partial_shaped  p
    cases k <;> unfold Imap.MessageDataItemName.enc <;> shape
  | binarySize s =>
    have h1 := part_shaped  s
    unfold Imap.MessageDataItemName.enc
    shape
  | _ => exact .one (.of rfl)

theorem MacroOrNames.shaped {x : MacroOrNames} (h : MacroOrNames.Inv .inv x) : Shaped SafeAt AnyBytes x.enc := by
  cases x with
  | macro_ m => cases m <;> exact .one (.of rfl)
  | names l =>
    have h2 := Shaped.joinMap (p := SafeAt) (q := AnyBytes) (sep := b!" ") (.of rfl) fun a ha => MessageDataItemName.shaped (h a ha)
    unfold Imap.MacroOrNames.enc
    split
    · exact .one (.of rfl)
    · exact .one (.of rfl)
    · exact .one (.of rfl)
    · next e => cases e; exact MessageDataItemName.shaped (h _ (by simp))
    · next e => cases e; shape

/-! ### Search -/

theorem modSequence_shaped {e : Option (AttributeFlag × EntryTypeReq)} (h : Opt (fun x => AttributeFlag.Inv x.1) e) (n : Nat) :
    Shaped SafeAt AnyBytes (encModSequence e n) := by
  cases e with
  | none => unfold encModSequence; shape
  | some x =>
    obtain ⟨f, t⟩ := x
    have h := h _ rfl
    have ht : SafeAt t.enc := by cases t <;> exact .of rfl
    have hf : isPlain f.enc = true := by
      cases f with
      | extension a => exact isPlain_append (xs := b!"\\") (ys := a) rfl (isPlain_atom h.1)
      | keyword a => exact isPlain_atom h
      | _ => rfl
    have hq : SafeAt (b!" \"/flags/" ++ f.enc ++ b!"\"") := .of (isPlain_append (isPlain_append rfl hf) rfl)
    unfold encModSequence
    refine .append (.append (.one (.of rfl)) (.merge (.merge (.wr hq ?_)))) ?_ <;> shape


mutual
theorem SearchKey.shaped : ∀ {x : SearchKey}, SearchKey.Inv .inv x → Shaped SafeAt AnyBytes x.enc
  | .and ks, h => by
    simp only [SearchKey.Inv] at h
    have := Shaped.join (p := SafeAt) (q := AnyBytes) (sep := b!" ") (.of rfl) (SearchKey.go_shaped h.2)
    simp only [Imap.SearchKey.enc]
    shape
  | .not k, h => by
    simp only [SearchKey.Inv] at h
    have := SearchKey.shaped h
    simp only [Imap.SearchKey.enc]
    shape
  | .or a b, h => by
    simp only [SearchKey.Inv] at h
    have := SearchKey.shaped h.1
    have := SearchKey.shaped h.2
    simp only [Imap.SearchKey.enc]
    shape
  | .modSequence e n, h => by
    simp only [SearchKey.Inv] at h
    simp only [Imap.SearchKey.enc]
    exact modSequence_shaped h.2.1 n
  | .sequenceSet s, h | .uid s, h => by
    have := SequenceSet.shaped  s
    simp only [Imap.SearchKey.enc]
    shape
  | .before d, h | .on d, h | .sentBefore d, h | .sentOn d, h | .sentSince d, h | .since d, h => by
    simp only [SearchKey.Inv] at h
    have := NaiveDate.shaped  h
    simp only [Imap.SearchKey.enc]
    shape
  | .keyword a, h | .unkeyword a, h => by
    simp only [SearchKey.Inv] at h
    have := SafeAt.atom  h
    simp only [Imap.SearchKey.enc]
    shape
  | .larger n, h | .smaller n, h | .all, h | .answered, h | .deleted, h | .draft, h | .flagged, h | .new, h | .old, h | .recent, h
  | .seen, h | .unanswered, h | .undeleted, h | .undraft, h | .unflagged, h | .unseen, h => by
    simp only [Imap.SearchKey.enc]
    shape
  | .bcc s, h | .body s, h | .cc s, h | .from_ s, h | .subject s, h | .text s, h | .to s, h => by
    simp only [SearchKey.Inv] at h
    have := AString.shaped h
    simp only [Imap.SearchKey.enc]
    shape
  | .header n v, h => by
    simp only [SearchKey.Inv] at h
    have := AString.shaped h.1
    have := AString.shaped h.2
    simp only [Imap.SearchKey.enc]
    shape

theorem SearchKey.go_shaped : ∀ {l : List SearchKey}, SearchKey.Inv.go .inv l → ∀ x ∈ SearchKey.enc.go l, Shaped SafeAt AnyBytes x
  | [], _ => by simp [SearchKey.enc.go]
  | k :: ks, h => by
    simp only [SearchKey.Inv.go] at h
    simp only [SearchKey.enc.go, List.mem_cons]
    rintro x (rfl | hx)
    · exact SearchKey.shaped h.1
    · exact SearchKey.go_shaped h.2 x hx
end

theorem Criteria.shaped {l : List SearchKey} (h : Criteria.Inv .inv l) : Shaped SafeAt AnyBytes (encKeys l) :=
  Shaped.joinMap (.of rfl) fun k hk => SearchKey.shaped (h.2 k hk).1


/-! ### Commands -/

theorem params_shaped {l : List (List W)} (h : ∀ x ∈ l, Shaped SafeAt AnyBytes x) : Shaped SafeAt AnyBytes (encParams l) := by
  have := Shaped.join (p := SafeAt) (q := AnyBytes) (sep := b!" ") (.of rfl) h
  unfold encParams
  split <;> shape

theorem paramsMap_shaped {α : Type} {f : α → List W} {l : List α} (h : ∀ x ∈ l, Shaped SafeAt AnyBytes (f x)) :
    Shaped SafeAt AnyBytes (encParams (l.map f)) := params_shaped fun x hx => by
  obtain ⟨a, ha, rfl⟩ := List.mem_map.1 hx
  exact h a ha

theorem spaces {α : Type} {f : α → List W} {l : List α} (h : ∀ x ∈ l, Shaped SafeAt AnyBytes (f x)) :
    Shaped SafeAt AnyBytes (join b!" " (l.map f)) := Shaped.joinMap (.of rfl) h

theorem SelectParameter.shaped (x : SelectParameter) : Shaped SafeAt AnyBytes x.enc := by
  cases x with
  | condStore => exact .one (.of rfl)
  | qresync u m k s =>
    have hs := SequenceSet.shaped 
    simp only [Imap.SelectParameter.enc]
    refine .append (by shape) (.append ?_ (.append ?_ (by shape)))
    · cases k with
      | none => exact .nil
      | some k => have := hs k; shape
    · cases s with
      | none => exact .nil
      | some s => have := hs s.1; have := hs s.2; shape

theorem FetchModifier.shaped (x : FetchModifier) : Shaped SafeAt AnyBytes x.enc := by
  cases x <;> unfold Imap.FetchModifier.enc <;> shape

theorem CapabilityEnable.shaped {x : CapabilityEnable} (h : CapabilityEnable.Inv x) : Shaped SafeAt AnyBytes x.enc := by
  cases x with
  | other a => exact .one (SafeAt.atom h.1)
  | _ => exact .one (.of rfl)

theorem Resource.safe {x : Resource} (h : Resource.Inv x) : SafeAt x.name := by
  cases x with
  | other a => exact SafeAt.atom h.1
  | _ => exact .of rfl

theorem QuotaSet.shaped {x : QuotaSet} (h : QuotaSet.Inv x) : Shaped SafeAt AnyBytes x.enc := by
  have := Resource.safe  h.1
  unfold Imap.QuotaSet.enc
  shape

theorem SortCriterion.shaped (x : SortCriterion) : Shaped SafeAt AnyBytes x.enc := by
  obtain ⟨r, k⟩ := x
  cases r <;> cases k <;> exact .wr (.of rfl) (.one (.of rfl))

theorem ThreadingAlgorithm.safe {x : ThreadingAlgorithm} (h : ThreadingAlgorithm.Inv x) : SafeAt x.name := by
  cases x with
  | other a => exact SafeAt.atom h.1
  | _ => exact .of rfl

theorem IdParams.shaped {x : Option IdParams} (h : Opt (IdParams.Inv .inv) x) : Shaped SafeAt AnyBytes (encIdParams x) := by
  cases x with
  | none => exact .one (.of rfl)
  | some l =>
    have h := spaces (f := encIdParam) fun x hx => by
      have h1 := IString.shaped (h l rfl x hx).1
      have h2 := NString.shaped (h l rfl x hx).2
      unfold encIdParam
      shape
    cases l with
    | nil => exact .one (by split <;> exact .of rfl)
    | cons x l => unfold encIdParams; shape

theorem EntryValue.shaped {x : EntryValue} (h : EntryValue.Inv .inv x) : Shaped SafeAt AnyBytes x.enc := by
  have h1 := AString.shaped h.1
  have h2 := NString8.shaped h.2
  unfold Imap.EntryValue.enc
  shape

theorem GetMetadataOption.shaped (x : GetMetadataOption) : Shaped SafeAt AnyBytes x.enc := by
  cases x <;> unfold Imap.GetMetadataOption.enc <;> shape

theorem charsetOpt_shaped {x : Option Charset} (h : Opt Charset.Inv x) : Shaped SafeAt AnyBytes (encCharsetOpt x) := by
  cases x with
  | none => exact .nil
  | some c => exact .wr (.of rfl) (Charset.shaped (h c rfl))

theorem initialResponse_shaped (x : Option Bytes) : Shaped SafeAt AnyBytes (encInitialResponse x) := by
  cases x with
  | none => exact .nil
  | some d =>
    refine .wr (.of rfl) (.one ?_)
    split
    · exact .of rfl
    · exact SafeAt.b64 d

theorem dateOpt_shaped {x : Option DateTime} (h : Opt DateTime.Inv x) : Shaped SafeAt AnyBytes (encDateOpt x) := by
  cases x with
  | none => exact .nil
  | some d => exact .wr (.of rfl) (DateTime.shaped (h d rfl))

theorem storeModifiers_shaped (l : List StoreModifier) : Shaped SafeAt AnyBytes (encStoreModifiers l) := by
  have := spaces  (f := encStoreModifier) (l := l) fun x _ => by unfold encStoreModifier; shape
  unfold encStoreModifiers
  split <;> shape

theorem entries_shaped {l : List Entry} (h : ∀ e ∈ l, AString.Inv .inv e) : Shaped SafeAt AnyBytes (encEntries l) := by
  have := spaces fun e he => AString.shaped (h e he)
  unfold encEntries
  split
  · exact AString.shaped (h _ (by simp))
  · shape

theorem CommandBody.shaped {x : CommandBody} (h : CommandBody.Inv .inv x) : Shaped SafeAt AnyBytes x.enc := by
  have hs := SequenceSet.shaped 
  cases x with
  | authenticate m ir =>
    have h1 := AuthMechanism.safe h
    have h2 := initialResponse_shaped  ir
    unfold Imap.CommandBody.enc Imap.AuthMechanism.enc
    shape
  | login u p | rename u p | list u p | lsub u p =>
    first
    | have h1 := AString.shaped h.1
      have h2 := AString.shaped h.2
      unfold Imap.CommandBody.enc
      shape
    | have h1 := Mailbox.shaped h.1
      have h2 := Mailbox.shaped h.2
      unfold Imap.CommandBody.enc
      shape
    | have h1 := Mailbox.shaped h.1
      have h2 := ListMailbox.shaped h.2
      unfold Imap.CommandBody.enc
      shape
  | select m ps | examine m ps =>
    have h1 := Mailbox.shaped h.1
    have h2 := paramsMap_shaped  fun x (_ : x ∈ ps) => SelectParameter.shaped x
    unfold Imap.CommandBody.enc
    shape
  | create m | delete m | subscribe m | unsubscribe m | getQuotaRoot m =>
    have h1 := Mailbox.shaped h
    unfold Imap.CommandBody.enc
    shape
  | status m l =>
    have h1 := Mailbox.shaped h.1
    have h2 := spaces  fun x (_ : x ∈ l) => StatusDataItemName.shaped x
    unfold Imap.CommandBody.enc
    shape
  | append m fs d msg =>
    have h1 := Mailbox.shaped h.1
    have h2 := paramsMap_shaped  fun x hx => Flag.shaped (h.2.1 x hx)
    have h3 := dateOpt_shaped  h.2.2.1
    have h4 := LiteralOrLiteral8.shaped h.2.2.2
    unfold Imap.CommandBody.enc
    shape
  | expungeUid s => have := hs s; unfold Imap.CommandBody.enc; shape
  | search c l u =>
    have h1 := charsetOpt_shaped  h.1
    have h2 := Criteria.shaped h.2
    unfold Imap.CommandBody.enc
    shape
  | sort s c l u =>
    have h1 := spaces  fun x (_ : x ∈ s) => SortCriterion.shaped x
    have h2 := Charset.shaped  h.2.1
    have h3 := Criteria.shaped h.2.2
    unfold Imap.CommandBody.enc
    shape
  | thread a c l u =>
    have h1 := ThreadingAlgorithm.safe  h.1
    have h2 := Charset.shaped  h.2.1
    have h3 := Criteria.shaped h.2.2
    unfold Imap.CommandBody.enc
    shape
  | fetch s i u ms =>
    have h1 := hs s
    have h2 := MacroOrNames.shaped h.2.1
    have h3 := paramsMap_shaped  fun x (_ : x ∈ ms) => FetchModifier.shaped x
    unfold Imap.CommandBody.enc
    shape
  | store s k r fs u ms =>
    have h1 := hs s
    have h2 := storeModifiers_shaped  ms
    have h3 := spaces  fun x hx => Flag.shaped (h.2.1 x hx)
    have h4 : Shaped SafeAt AnyBytes k.enc := by cases k <;> unfold Imap.StoreType.enc <;> shape
    have h5 : Shaped SafeAt AnyBytes r.enc := by cases r <;> unfold Imap.StoreResponse.enc <;> shape
    unfold Imap.CommandBody.enc
    shape
  | copy s m u | move s m u =>
    have h1 := hs s
    have h2 := Mailbox.shaped h.2
    unfold Imap.CommandBody.enc
    shape
  | enable cs =>
    have h1 := spaces  fun x hx => CapabilityEnable.shaped (h.2 x hx)
    unfold Imap.CommandBody.enc
    shape
  | getQuota r => have h1 := AString.shaped h; unfold Imap.CommandBody.enc; shape
  | setQuota r qs =>
    have h1 := AString.shaped h.1
    have h2 := spaces  fun x hx => QuotaSet.shaped (h.2 x hx)
    unfold Imap.CommandBody.enc
    shape
  | id ps => have := IdParams.shaped h.2; unfold Imap.CommandBody.enc; shape
  | setMetadata m es =>
    have h1 := Mailbox.shaped h.2.1
    have h2 := spaces fun x hx => EntryValue.shaped (h.2.2.2 x hx)
    unfold Imap.CommandBody.enc
    shape
  | getMetadata os m es =>
    have h1 := paramsMap_shaped  fun x (_ : x ∈ os) => GetMetadataOption.shaped x
    have h2 := Mailbox.shaped h.2.2.1
    have h3 := entries_shaped h.2.2.2.2
    unfold Imap.CommandBody.enc
    shape
  | _ => unfold Imap.CommandBody.enc; shape

/-! ### Bodies -/

theorem list1OrNil_shaped {α : Type} {sep : Bytes} (hs : SafeAt sep) {f : α → List W} {l : List α}
    (h : ∀ x ∈ l, Shaped SafeAt AnyBytes (f x)) : Shaped SafeAt AnyBytes (list1OrNil sep (l.map f)) := by
  have := Shaped.joinMap hs h
  cases l with
  | nil => exact .one (.of rfl)
  | cons x l => exact .append (.append (.one (.of rfl)) this) (.one (.of rfl))

theorem Address.shaped {a : Address} (h : Address.Inv .inv a) : Shaped SafeAt AnyBytes a.enc := by
  have h1 := NString.shaped h.1
  have h2 := NString.shaped h.2.1
  have h3 := NString.shaped h.2.2.1
  have h4 := NString.shaped h.2.2.2
  unfold Imap.Address.enc
  shape

theorem addresses_shaped {l : List Address} (h : All (Address.Inv .inv) l) : Shaped SafeAt AnyBytes (encAddresses l) :=
  list1OrNil_shaped (.of rfl) fun a ha => Address.shaped (h a ha)

theorem Envelope.shaped {e : Envelope} (h : Envelope.Inv .inv e) : Shaped SafeAt AnyBytes e.enc := by
  obtain ⟨h1, h2, h3, h4, h5, h6, h7, h8, h9, h10⟩ := h
  have h1 := NString.shaped h1
  have h2 := NString.shaped h2
  have h3 := addresses_shaped h3
  have h4 := addresses_shaped h4
  have h5 := addresses_shaped h5
  have h6 := addresses_shaped h6
  have h7 := addresses_shaped h7
  have h8 := addresses_shaped h8
  have h9 := NString.shaped h9
  have h10 := NString.shaped h10
  unfold Imap.Envelope.enc
  shape

mutual
theorem BodyExtension.shaped : ∀ {x : BodyExtension}, BodyExtension.Inv .inv x → Shaped SafeAt AnyBytes x.enc
  | .nstring s, h => by
    simp only [BodyExtension.Inv] at h
    simp only [Imap.BodyExtension.enc]
    exact NString.shaped h
  | .number n, h => by simp only [Imap.BodyExtension.enc, encNat]; shape
  | .list l, h => by
    simp only [BodyExtension.Inv] at h
    have := Shaped.join (p := SafeAt) (q := AnyBytes) (sep := b!" ") (.of rfl) (BodyExtension.go_shaped h.2)
    simp only [Imap.BodyExtension.enc]
    shape

theorem BodyExtension.go_shaped : ∀ {l : List BodyExtension}, BodyExtension.Inv.go .inv l → ∀ x ∈ BodyExtension.enc.go l, Shaped SafeAt AnyBytes x
  | [], _ => by simp [BodyExtension.enc.go]
  | k :: ks, h => by
    simp only [BodyExtension.Inv.go] at h
    simp only [BodyExtension.enc.go, List.mem_cons]
    rintro x (rfl | hx)
    · exact BodyExtension.shaped h.1
    · exact BodyExtension.go_shaped h.2 x hx
end

theorem Params.shaped {l : Params} (h : Params.Inv .inv l) : Shaped SafeAt AnyBytes (encParamList l) := by
  unfold encParamList list1AttrOrNil
  rw [List.map_map]
  refine list1OrNil_shaped (.of rfl) fun x hx => ?_
  exact .append (.append (IString.shaped (h x hx).1) (.one (.of rfl))) (IString.shaped (h x hx).2)

theorem opt_shaped {α : Type} {f : α → List W} {o : Option α} (h : ∀ a ∈ o, Shaped SafeAt AnyBytes (f a)) : Shaped SafeAt AnyBytes (encOpt f o) := by
  cases o with
  | none => exact .nil
  | some a => exact .wr (.of rfl) (h a rfl)

theorem Location.shaped {x : Location} (h : Location.Inv .inv x) : Shaped SafeAt AnyBytes x.enc :=
  .append (NString.shaped h.1) (Shaped.flatMap fun e he => .wr (.of rfl) (BodyExtension.shaped (h.2 e he).1))

theorem Language.shaped {x : Language} (h : Language.Inv .inv x) : Shaped SafeAt AnyBytes x.enc :=
  .append (list1OrNil_shaped (.of rfl) fun e he => IString.shaped (h.1 e he)) (opt_shaped fun a ha => Location.shaped (h.2 a ha))

theorem Disposition.shaped {x : Disposition} (h : Disposition.Inv .inv x) : Shaped SafeAt AnyBytes x.enc := by
  refine .append ?_ (opt_shaped fun a ha => Language.shaped (h.2 a ha))
  have h := h.1
  cases hd : x.disposition with
  | none => exact .one (.of rfl)
  | some d =>
    have h1 := IString.shaped (h d hd).1
    have h2 := Params.shaped (h d hd).2
    unfold encDisposition
    shape

theorem SinglePartExt.shaped {x : SinglePartExt} (h : SinglePartExt.Inv .inv x) : Shaped SafeAt AnyBytes x.enc :=
  .append (NString.shaped h.1) (opt_shaped fun a ha => Disposition.shaped (h.2 a ha))

theorem MultiPartExt.shaped {x : MultiPartExt} (h : MultiPartExt.Inv .inv x) : Shaped SafeAt AnyBytes x.enc :=
  .append (Params.shaped h.1) (opt_shaped fun a ha => Disposition.shaped (h.2 a ha))

theorem BasicFields.shaped {x : BasicFields} (h : BasicFields.Inv .inv x) : Shaped SafeAt AnyBytes x.enc := by
  have h1 := Params.shaped h.1
  have h2 := NString.shaped h.2.1
  have h3 := NString.shaped h.2.2.1
  have h4 := IString.shaped h.2.2.2.1
  unfold Imap.BasicFields.enc
  shape

mutual
theorem BodyStructure.shaped : ∀ {x : BodyStructure}, BodyStructure.Inv .inv x → Shaped SafeAt AnyBytes x.enc
  | .basic f t s x, h => by
    simp only [BodyStructure.Inv] at h
    have h1 := BasicFields.shaped h.1
    have h2 := IString.shaped h.2.1
    have h3 := IString.shaped h.2.2.1
    have h4 := opt_shaped fun a ha => SinglePartExt.shaped (h.2.2.2 a ha)
    simp only [Imap.BodyStructure.enc]
    shape
  | .message f e b n x, h => by
    simp only [BodyStructure.Inv] at h
    have h1 := BasicFields.shaped h.1
    have h2 := Envelope.shaped h.2.1
    have h3 := BodyStructure.shaped h.2.2.1
    have h4 := opt_shaped fun a ha => SinglePartExt.shaped (h.2.2.2.2.2 a ha)
    simp only [Imap.BodyStructure.enc]
    shape
  | .text f s n x, h => by
    simp only [BodyStructure.Inv] at h
    have h1 := BasicFields.shaped h.1
    have h2 := IString.shaped h.2.1
    have h4 := opt_shaped fun a ha => SinglePartExt.shaped (h.2.2.2 a ha)
    simp only [Imap.BodyStructure.enc]
    shape
  | .multi l s x, h => by
    simp only [BodyStructure.Inv] at h
    have h1 := BodyStructure.go_shaped h.2.1
    have h2 := IString.shaped h.2.2.1
    have h4 := opt_shaped fun a ha => MultiPartExt.shaped (h.2.2.2 a ha)
    simp only [Imap.BodyStructure.enc]
    shape

theorem BodyStructure.go_shaped : ∀ {l : List BodyStructure}, BodyStructure.Inv.go .inv l → Shaped SafeAt AnyBytes (BodyStructure.enc.go l)
  | [], _ => by simp only [BodyStructure.enc.go]; exact .nil
  | k :: ks, h => by
    simp only [BodyStructure.Inv.go] at h
    simp only [BodyStructure.enc.go]
    exact .append (BodyStructure.shaped h.1) (BodyStructure.go_shaped h.2)
end

/-! ### Responses -/

theorem Capability.safe {x : Capability} (h : Capability.Inv .inv x) : SafeAt x.name := by
  cases x with
  | auth m => exact SafeAt.append (.of rfl) (AuthMechanism.safe h)
  | quotaRes r => exact SafeAt.append (.of rfl) (Resource.safe h.1)
  | sort a =>
    cases a with
    | none => exact .of rfl
    | some a =>
      refine SafeAt.append (.of rfl) ?_
      cases a with
      | display => exact .of rfl
      | other a => exact SafeAt.atom h.1
  | thread a => exact SafeAt.append (.of rfl) (ThreadingAlgorithm.safe h)
  | other a => exact SafeAt.atom h.1
  | _ => exact .of rfl

theorem UidSet.shaped (l : List UidElement) : Shaped SafeAt AnyBytes (encUidSet l) :=
  Shaped.joinMap (.of rfl) fun x _ => by cases x <;> unfold Imap.UidElement.enc <;> shape

/-- The code can be written. -/
def PlainCode : Code → Prop
  | .referral url => SafeAt url
  | .other bs => SafeAt bs
  | _ => True

theorem Code.shaped {t : Bytes} {c : Code} (h : Code.Inv .inv t c) (hc : PlainCode c) : Shaped SafeAt AnyBytes c.enc := by
  cases c with
  | badCharset l =>
    have := spaces  fun x hx => Charset.shaped (h x hx)
    refine weaken ?_
    show Shaped SafeAt AnyBytes (encBadCharset l)
    unfold encBadCharset
    split <;> shape
  | capability l =>
    have := spaces  fun x hx => Shaped.one (Capability.safe (h.2 x hx))
    refine weaken ?_
    unfold Imap.Code.enc Imap.Capability.enc
    shape
  | permanentFlags l =>
    have := spaces  fun x hx => FlagPerm.shaped (h x hx)
    refine weaken ?_
    unfold Imap.Code.enc
    shape
  | referral url => exact .wr (.of rfl) (.one hc)
  | metadata c =>
    refine .wr (.of rfl) ?_
    cases c <;> unfold Imap.MetadataCode.enc <;> shape
  | copyUid v s d =>
    have h1 := UidSet.shaped  s
    have h2 := UidSet.shaped  d
    refine weaken ?_
    unfold Imap.Code.enc
    shape
  | modified s => exact weaken (.wr (.of rfl) (SequenceSet.shaped s))
  | other bs => exact .one hc
  | _ => unfold Imap.Code.enc; shape

theorem RespText.shaped {c : Option Code} {t : Bytes} (h : RespText.Inv .inv c t) (hc : ∀ x ∈ c, PlainCode x) : Shaped SafeAt AnyBytes (encRespText c t) := by
  have ht : SafeAt t := .of (text_plain h.1.2)
  cases c with
  | none => exact .one ht
  | some c =>
    have := Code.shaped (h.2.1 c rfl) (hc c rfl)
    unfold encRespText
    shape

theorem StatusDataItem.shaped (x : StatusDataItem) : Shaped SafeAt AnyBytes x.enc := by
  cases x <;> unfold Imap.StatusDataItem.enc <;> shape

theorem MessageDataItem.shaped {x : MessageDataItem} (h : MessageDataItem.Inv .inv x) : Shaped SafeAt AnyBytes x.enc := by
  cases x with
  | body b => exact .wr (.of rfl) (BodyStructure.shaped h.1)
  | bodyStructure b => exact .wr (.of rfl) (BodyStructure.shaped h.1)
  | bodyExt s o d =>
    have h1 := sectionOpt_shaped h.1
    have h2 := NString.shaped h.2.2
    have h3 : Shaped SafeAt AnyBytes (encOrigin o) := by cases o <;> unfold encOrigin <;> shape
    unfold Imap.MessageDataItem.enc
    shape
  | envelope e => exact .wr (.of rfl) (Envelope.shaped h)
  | flags l =>
    have := spaces  fun x hx => FlagFetch.shaped (h x hx)
    unfold Imap.MessageDataItem.enc
    shape
  | internalDate t => exact .wr (.of rfl) (DateTime.shaped h)
  | rfc822 s | rfc822Header s | rfc822Text s => exact .wr (.of rfl) (NString.shaped h)
  | binary s v =>
    have h1 := part_shaped  s
    have h2 := NString8.shaped h.2
    unfold Imap.MessageDataItem.enc
    shape
  | binarySize s n =>
    have h1 := part_shaped  s
    unfold Imap.MessageDataItem.enc
    shape
  | _ => unfold Imap.MessageDataItem.enc; shape

mutual
theorem Thread.shaped : ∀ (x : Thread), Shaped SafeAt AnyBytes x.enc
  | .members p l => by
    have h1 := Thread.go_shaped l
    have h2 : Shaped SafeAt AnyBytes (encPrefix p l) := by
      have := spaces  (f := encNat) (l := p) fun n _ => by unfold encNat; shape
      unfold encPrefix
      split <;> shape
    simp only [Imap.Thread.enc]
    shape
  | .nested l => by
    have h1 := Thread.go_shaped l
    simp only [Imap.Thread.enc]
    shape

theorem Thread.go_shaped : ∀ (l : List Thread), Shaped SafeAt AnyBytes (Thread.enc.go l)
  | [] => by simp only [Thread.enc.go]; exact .nil
  | t :: l => by
    simp only [Thread.enc.go]
    exact .append (Thread.shaped t) (Thread.go_shaped l)
end

theorem delimiter_shaped {d : Option UInt8} (h : Opt TextChar d) : Shaped SafeAt AnyBytes (encDelimiter d) := by
  cases d with
  | none => exact .one (.of rfl)
  | some c =>
    refine .merge (.merge (.one (.of ?_)))
    have h := (textChar_iff c).2 (h c rfl)
    have key : ∀ c : UInt8, isTextChar c = true → isPlain (b!"\"" ++ encQuotedChar c ++ b!"\"") = true := forall_byte (by decide)
    exact key c h

theorem Namespace.shaped {n : Namespace} (h : Namespace.Inv .inv n) : Shaped SafeAt AnyBytes n.enc := by
  have h1 := IString.shaped h.1
  have h2 := delimiter_shaped  h.2.1
  have h3 : Shaped SafeAt AnyBytes (n.extensions.map NamespaceExt.enc).flatten := Shaped.flattenMap fun e he => by
    have h1 := IString.shaped (h.2.2 e he).1
    have h2 := spaces fun x hx => IString.shaped ((h.2.2 e he).2.2 x hx)
    unfold Imap.NamespaceExt.enc
    shape
  unfold Imap.Namespace.enc
  shape

theorem namespaces_shaped {l : List Namespace} (h : All (Namespace.Inv .inv) l) : Shaped SafeAt AnyBytes (encNamespaces l) := by
  have := Shaped.flattenMap fun x hx => Namespace.shaped (h x hx)
  unfold encNamespaces
  split <;> shape

theorem QuotaGet.shaped {x : QuotaGet} (h : QuotaGet.Inv x) : Shaped SafeAt AnyBytes x.enc := by
  have := Resource.safe  h.1
  unfold Imap.QuotaGet.enc
  shape

theorem MetadataResponse.shaped {x : MetadataResponse} (h : MetadataResponse.Inv .inv x) : Shaped SafeAt AnyBytes x.enc := by
  cases x with
  | withValues l =>
    have := spaces fun x hx => EntryValue.shaped (h.2 x hx)
    unfold Imap.MetadataResponse.enc
    shape
  | withoutValues l => exact spaces fun x hx => AString.shaped (h.2 x hx)

theorem numbers_shaped {kw : Bytes} (h : SafeAt kw) (l : List NzU32) (m : Option Nat) : Shaped SafeAt AnyBytes (encNumbers kw l ++ encModSeqOpt m) := by
  have h1 := spaces  (f := encNat) (l := l) fun n _ => by unfold encNat; shape
  refine .append ?_ ?_
  · unfold encNumbers
    split
    · exact .one (SafeAt.append (.of rfl) h)
    · exact .wr (SafeAt.append (SafeAt.append (.of rfl) h) (.of rfl)) h1
  · cases m <;> unfold encModSeqOpt <;> shape

theorem spaced_shaped {α : Type} {f : α → List W} {l : List α} (h : ∀ x ∈ l, Shaped SafeAt AnyBytes (f x)) : Shaped SafeAt AnyBytes (encSpaced f l) :=
  Shaped.flattenMap fun x hx => .wr (.of rfl) (h x hx)

theorem Data.shaped {d : Data} (h : Data.Inv .inv d) : Shaped SafeAt AnyBytes d.encLine := by
  cases d with
  | capability l =>
    have := spaces  fun x hx => Shaped.one (Capability.safe (h.2 x hx))
    unfold Imap.Data.encLine Imap.Capability.enc
    shape
  | list l d m | lsub l d m =>
    have h1 := spaces  fun x hx => FlagNameAttribute.shaped (h.1 x hx)
    have h2 := delimiter_shaped  h.2.1
    have h3 := Mailbox.shaped h.2.2
    unfold Imap.Data.encLine
    shape
  | status m l =>
    have h1 := Mailbox.shaped h.1
    have h2 := spaces  fun x (_ : x ∈ l) => StatusDataItem.shaped x
    unfold Imap.Data.encLine
    shape
  | search l m | sort l m => exact numbers_shaped (.of rfl) l m
  | thread l =>
    have h1 := Shaped.flattenMap (p := SafeAt) (q := AnyBytes) fun x (_ : x ∈ l) => Thread.shaped x
    show Shaped SafeAt AnyBytes (encThreads l)
    unfold encThreads
    split <;> shape
  | flags l =>
    have h1 := spaces  fun x hx => Flag.shaped (h x hx)
    unfold Imap.Data.encLine
    shape
  | fetch n l =>
    have h1 := spaces fun x hx => MessageDataItem.shaped (h.2.2 x hx)
    unfold Imap.Data.encLine
    shape
  | enabled l => exact .wr (.of rfl) (spaced_shaped fun x hx => CapabilityEnable.shaped (h x hx))
  | quota r l =>
    have h1 := AString.shaped h.1
    have h2 := spaces  fun x hx => QuotaGet.shaped (h.2.2 x hx)
    unfold Imap.Data.encLine
    shape
  | quotaRoot m l =>
    have h1 := Mailbox.shaped h.1
    have h2 := spaced_shaped fun x hx => AString.shaped (h.2 x hx)
    unfold Imap.Data.encLine
    shape
  | id_ p => exact .wr (.of rfl) (IdParams.shaped h.2)
  | metadata m r =>
    have h1 := Mailbox.shaped h.2.1
    have h2 := MetadataResponse.shaped h.2.2
    unfold Imap.Data.encLine
    shape
  | vanished e s =>
    have h1 := SequenceSet.shaped  s
    unfold Imap.Data.encLine
    cases e <;> shape
  | namespace_ p o s =>
    have h1 := namespaces_shaped h.2.1
    have h2 := namespaces_shaped h.2.2.1
    have h3 := namespaces_shaped h.2.2.2
    unfold Imap.Data.encLine
    shape
  | _ => unfold Imap.Data.encLine; shape

/-! ### Messages -/

theorem lines_of {ws : List W} (h : Shaped SafeAt AnyBytes ws) {l : Bytes} (hl : .line l ∈ fragments (ws ++ [.wr b!"\r\n"])) : SafeAt l := by
  obtain ⟨fs, l', h1, h2, h3⟩ := fragments_shaped (.of rfl) (fun a b => SafeAt.append) h (t := b!"\r\n") (by simp)
  rw [h1] at hl
  clear h1
  replace hl := List.mem_append.1 hl
  rcases hl with hl | hl
  · induction h2 with
    | nil => simp at hl
    | @cons a d m fs ha _ _ ih =>
      rcases List.mem_cons.1 hl with e | hl
      · cases e
        refine SafeAt.append ha (.of ?_)
        cases m <;> exact isPlain_append (isPlain_append rfl (isPlain_nat _)) rfl
      · rcases List.mem_cons.1 hl with e | hl
        · simp at e
        · exact ih hl
  · simp only [List.mem_singleton, Fragment.line.injEq] at hl
    subst hl
    exact SafeAt.append h3 (.of rfl)

theorem respText_lines {pre : List W} {c : Option Code} {t l : Bytes} (h : RespText.Inv .inv c t) (hc : ∀ x ∈ c, PlainCode x)
    (hp : Shaped SafeAt AnyBytes pre) (hl : .line l ∈ fragments (pre ++ .wr b!" " :: encRespText c t ++ [.wr b!"\r\n"])) : SafeAt l :=
  lines_of (hp.append (.wr (.of rfl) (RespText.shaped h hc))) hl

end Imap.Wire

namespace Imap

/-- The response code of a message, if it has one. -/
def Codec.code : (k : Codec) → k.Message → Option Code
  | .greeting, g => Greeting.code g
  | .response, .status (.untagged _ c _) => c
  | .response, .status (.tagged _ _ c _) => c
  | .response, .status (.bye c _) => c
  | .response, .continue_ (.basic c _) => c
  | _, _ => none

end Imap

namespace Imap.Wire

open Imap Imap.Spec

theorem message_lines [Quirks] [Closed] (k : Codec) (m : k.Message) (h : Message.Inv .inv k m) (hc : ∀ c ∈ k.code m, PlainCode c) (l : Bytes)
    (hl : .line l ∈ k.encode m) : SafeAt l := by
  cases k with
  | greeting => exact respText_lines (pre := [.wr b!"* ", .wr (Greeting.kind m).name]) h hc (by cases (Greeting.kind m) <;> unfold GreetingKind.name <;> shape) hl
  | command =>
    obtain ⟨t, b⟩ := m
    have h1 := SafeAt.tag h.1
    have h2 := CommandBody.shaped h.2
    exact lines_of (ws := .wr t :: .wr b!" " :: b.enc) (by shape) hl
  | authenticateData =>
    cases m with
    | continue_ d => exact lines_of (ws := [.wr (b64Encode d)]) (.one (SafeAt.b64 d)) hl
    | cancel => exact lines_of (ws := [.wr b!"*"]) (.one (.of rfl)) hl
  | idleDone => exact lines_of (ws := [.wr b!"DONE"]) (.one (.of rfl)) hl
  | response =>
    cases m with
    | data d => exact lines_of (Data.shaped h) hl
    | continue_ r =>
      cases r with
      | base64 d => exact lines_of (ws := [.wr b!"+ ", .wr (b64Encode d)]) (.wr (.of rfl) (.one (SafeAt.b64 d))) hl
      | basic c t => exact respText_lines (pre := [.wr b!"+"]) h.1 hc (by shape) hl
    | status s =>
      cases s with
      | untagged k c t =>
        exact respText_lines (pre := [.wr b!"*", .wr b!" ", .wr k.name]) h hc (by cases k <;> unfold StatusKind.name <;> shape) hl
      | tagged tag k c t =>
        have ht := SafeAt.tag h.1
        exact respText_lines (pre := [.wr tag, .wr b!" ", .wr k.name]) h.2 hc (by cases k <;> unfold StatusKind.name <;> shape) hl
      | bye c t => exact respText_lines (pre := [.wr b!"*", .wr b!" ", .wr b!"BYE"]) h hc (by shape) hl

end Imap.Wire
