import Verif.FetchName
import Verif.PartsLemmas
/-
Facts about the items of a FETCH command.
-/
set_option maxRecDepth 10000

namespace Imap

variable [Quirks]

instance : Nice headerList := by unfold headerList; infer_instance
instance : Nice sectionMsgtext := by unfold sectionMsgtext; infer_instance
instance : Nice sectionPart := by unfold sectionPart; infer_instance
instance : Nice sectionText := by unfold sectionText; infer_instance
instance : Nice sectionSpec := by unfold sectionSpec; infer_instance
instance : Nice «section» := by unfold «section»; infer_instance
instance : Nice sectionBinary := by unfold sectionBinary; infer_instance
instance : Nice partial_ := by unfold partial_; infer_instance
set_option synthInstance.maxSize 1000 in
set_option synthInstance.maxHeartbeats 200000 in
instance : Nice fetchAtt := by unfold fetchAtt; infer_instance
instance : Nice macroOrNames := by unfold macroOrNames; infer_instance

/-! ### Postconditions -/

omit [Quirks] in
theorem isNonZeroU32_iff {n : Nat} : isNonZeroU32 n = true ↔ 0 < n ∧ n < 4294967296 := by
  simp only [isNonZeroU32, Bool.and_eq_true, decide_eq_true_eq]
  unfold u32Max
  omega

instance : Canon headerList fun l => isAStrings l = true := ⟨by
  unfold headerList
  post
  next h => simpa [isAStrings] using h⟩

/-- The type invariants of `PartSpecifier`. -/
def PartSpecifier.valid : PartSpecifier → Bool
  | .headerFields fs => isAStrings fs
  | .headerFieldsNot fs => isAStrings fs
  | _ => true

instance : Canon sectionMsgtext fun s => s.valid = true ∧ s ≠ .mime := ⟨by
  unfold sectionMsgtext
  post
  · exact ⟨hv, by simp⟩
  · exact ⟨hv, by simp⟩
  · exact ⟨rfl, by simp⟩
  · exact ⟨rfl, by simp⟩⟩

/-- The `unreachable!()` of `section_spec` is never reached. -/
theorem sectionMsgtext_ofMsgtext {x r : Bytes} {s : PartSpecifier} (h : sectionMsgtext x = .ok r s) :
    ∃ t, Section.ofMsgtext s = some t := by
  have := (Canon.post (p := sectionMsgtext) _ _ _ h).2
  cases s <;> simp_all [Section.ofMsgtext]

instance : Canon sectionPart fun p => isPart p = true := ⟨by
  unfold sectionPart
  post
  simpa [isPart, isNonZeroU32_iff] using hv⟩

instance : Canon sectionText fun s => s.valid = true := ⟨by
  unfold sectionText
  post
  · exact hv.1
  · rfl⟩

instance : Canon sectionSpec fun s => s.valid = true := ⟨by
  unfold sectionSpec
  post
  · cases v <;> simp [Section.ofMsgtext] at hw <;> subst hw <;> simp_all [Section.valid, isPartOpt, PartSpecifier.valid]
  · next p hp =>
    cases v with
    | none => exact hp
    | some t =>
      have := hv t rfl
      cases t <;> simp_all [Section.ofPart, Section.valid, isPartOpt, PartSpecifier.valid]⟩

instance : Canon «section» fun s => isSectionOpt s = true := ⟨by
  unfold «section»
  post
  next o ho =>
  cases o with
  | none => rfl
  | some t => exact ho t rfl⟩

instance : Canon sectionBinary fun s => s.all isNonZeroU32 = true := ⟨by
  unfold sectionBinary
  post
  next o ho =>
  cases o with
  | none => rfl
  | some t =>
    have := ho t rfl
    simp only [isPart, Bool.and_eq_true] at this
    exact this.2⟩

instance : Canon partial_ fun p => isPartial (some p) = true := ⟨by
  unfold partial_
  post
  simp only [isPartial, isNonZeroU32_iff, Bool.and_eq_true, decide_eq_true_eq]
  exact ⟨by assumption, by assumption⟩⟩

omit [Quirks] in
theorem isPartial_opt {o : Option (Nat × NzU32)} (h : ∀ v, o = some v → isPartial (some v) = true) : isPartial o = true := by
  cases o with
  | none => rfl
  | some v => exact h v rfl

instance : Canon fetchAtt fun a => a.valid = true := ⟨by
  unfold fetchAtt
  post
  all_goals simp only [MessageDataItemName.valid, Bool.and_eq_true]
  all_goals first
    | exact ⟨by assumption, isPartial_opt (by assumption)⟩
    | assumption⟩

instance : Canon macroOrNames fun a => a.valid = true := ⟨by
  unfold macroOrNames
  post
  · rfl
  · rfl
  · rfl
  · simp [MacroOrNames.valid, hv]
  · next h => simpa [MacroOrNames.valid] using h⟩

/-! ### Round trips -/

theorem rt_headerList {l : List AString} {r : Bytes} (h : isAStrings l = true) :
    headerList (40 :: (bytes (join b!" " (l.map AString.enc)) ++ 41 :: r)) = .ok r l := by
  simp only [isAStrings, Bool.and_eq_true, Bool.not_eq_true', List.isEmpty_eq_false_iff, List.all_eq_true] at h
  have := sepList1_sp (p := astring) (e := AString.enc) (g := id) (F := fun r => Stops isAStringChar r = true)
    (rest := 41 :: r) (l := l) h.1 (fun s hs r hr => rt_astring (h.2 s hs) hr) (fun r => rfl) rfl rfl
  simp [headerList, tag, this]

omit [Quirks] in
theorem rt_sectionPart {p : List NzU32} {r : Bytes} (h : isPart p = true) (hr : Stops isDigit r = true)
    (hstop : (do tag b!"."; nzNumber : P Nat) r = .error) : sectionPart (bytes (encPart p) ++ r) = .ok r p := by
  simp only [isPart, Bool.and_eq_true, Bool.not_eq_true', List.isEmpty_eq_false_iff, List.all_eq_true, isNonZeroU32_iff] at h
  have := sepList1_join (sep := tag b!".") (p := nzNumber) (e := encNat) (g := id) (F := fun r => Stops isDigit r = true)
    (s := b!".") (rest := r) h.1 (fun r => by simp [tag]) (by simp)
    (fun n hn r hr => by simpa [encNat] using rt_nzNumber (h.2 n hn).1 (h.2 n hn).2 hr) (fun r => rfl) hr hstop
  simpa [sectionPart, encPart] using this

/-- The parts of a section after the part numbers. -/
def PartSpecifier.enc : PartSpecifier → List W
  | .header => [.wr b!"HEADER"]
  | .headerFields fs => [.wr b!"HEADER.FIELDS ("] ++ join b!" " (fs.map AString.enc) ++ [.wr b!")"]
  | .headerFieldsNot fs => [.wr b!"HEADER.FIELDS.NOT ("] ++ join b!" " (fs.map AString.enc) ++ [.wr b!")"]
  | .text => [.wr b!"TEXT"]
  | .mime => [.wr b!"MIME"]

theorem rt_sectionMsgtext {s : PartSpecifier} {r : Bytes} (h : s.valid = true) (hm : s ≠ .mime) :
    sectionMsgtext (bytes s.enc ++ 93 :: r) = .ok (93 :: r) s := by
  cases s with
  | header => rfl
  | headerFields fs =>
    have := rt_headerList (r := 93 :: r) h
    simp [sectionMsgtext, PartSpecifier.enc, orElse, tagNC, sp, char, this]
    rfl
  | headerFieldsNot fs =>
    have := rt_headerList (r := 93 :: r) h
    simp [sectionMsgtext, PartSpecifier.enc, orElse, tagNC, sp, char, this]
  | text => rfl
  | mime => exact absurd rfl hm

theorem rt_sectionText {s : PartSpecifier} {r : Bytes} (h : s.valid = true) :
    sectionText (bytes s.enc ++ 93 :: r) = .ok (93 :: r) s := by
  by_cases hm : s = .mime
  · subst hm
    rfl
  · have := rt_sectionMsgtext (r := r) h hm
    simp [sectionText, orElse, this]

/-- An encoded section: without or with part numbers. -/
theorem Section.cases {s : Section} (h : s.valid = true) :
    (∃ t, t.valid = true ∧ t ≠ .mime ∧ Section.ofMsgtext t = some s ∧ s.enc = t.enc) ∨
    (∃ p t, isPart p = true ∧ t.valid = true ∧ s = Section.ofPart p (some t) ∧ bytes s.enc = bytes (encPart p) ++ 46 :: bytes t.enc) ∨
    (∃ p, isPart p = true ∧ s = .part p) := by
  cases s with
  | part p => exact .inr (.inr ⟨p, h, rfl⟩)
  | mime p => exact .inr (.inl ⟨p, .mime, h, rfl, rfl, by simp [Section.enc, PartSpecifier.enc]⟩)
  | header p =>
    cases p with
    | none => exact .inl ⟨.header, rfl, by simp, rfl, rfl⟩
    | some p => exact .inr (.inl ⟨p, .header, h, rfl, rfl, by simp [Section.enc, PartSpecifier.enc, encPartDot]⟩)
  | text p =>
    cases p with
    | none => exact .inl ⟨.text, rfl, by simp, rfl, rfl⟩
    | some p => exact .inr (.inl ⟨p, .text, h, rfl, rfl, by simp [Section.enc, PartSpecifier.enc, encPartDot]⟩)
  | headerFields p fs =>
    simp only [Section.valid, Bool.and_eq_true] at h
    cases p with
    | none => exact .inl ⟨.headerFields fs, h.2, by simp, rfl, rfl⟩
    | some p => exact .inr (.inl ⟨p, .headerFields fs, h.1, h.2, rfl, by simp [Section.enc, PartSpecifier.enc, encPartDot]⟩)
  | headerFieldsNot p fs =>
    simp only [Section.valid, Bool.and_eq_true] at h
    cases p with
    | none => exact .inl ⟨.headerFieldsNot fs, h.2, by simp, rfl, rfl⟩
    | some p => exact .inr (.inl ⟨p, .headerFieldsNot fs, h.1, h.2, rfl, by simp [Section.enc, PartSpecifier.enc, encPartDot]⟩)

omit [Quirks] in
theorem showNat_head (n : Nat) : ∃ b bs, showNat n = b :: bs ∧ isDigit b = true := by
  have h1 := showNat_ne_nil n
  have h2 := showNat_digits n
  cases h : showNat n with
  | nil => exact absurd h h1
  | cons b bs =>
    rw [h] at h2
    simp only [List.all_cons, Bool.and_eq_true] at h2
    exact ⟨b, bs, rfl, h2.1⟩

omit [Quirks] in
theorem encPart_head {p : List NzU32} (h : isPart p = true) : ∃ b bs, bytes (encPart p) = b :: bs ∧ isDigit b = true := by
  cases p with
  | nil => simp [isPart] at h
  | cons n p =>
    obtain ⟨b, bs, h1, h2⟩ := showNat_head n
    exact ⟨b, _, by simp [encPart, join, encNat, h1]; rfl, h2⟩

theorem sectionMsgtext_digit {b : UInt8} {r : Bytes} (h : isDigit b = true) : sectionMsgtext (b :: r) = .error := by
  have key : ∀ b, isDigit b = true → lower 72 ≠ lower b ∧ lower 84 ≠ lower b := forall_byte (by decide)
  have := key b h
  simp [sectionMsgtext, orElse, tagNC, value, this]

theorem rt_sectionSpec {s : Section} {r : Bytes} (h : s.valid = true) :
    sectionSpec (bytes s.enc ++ 93 :: r) = .ok (93 :: r) s := by
  rcases Section.cases h with ⟨t, h1, h2, h3, h4⟩ | ⟨p, t, h1, h2, h3, h4⟩ | ⟨p, h1, rfl⟩
  · have := rt_sectionMsgtext (r := r) h1 h2
    rw [h4]
    simp [sectionSpec, orElse, mapRes, this, h3]
  · have e1 := rt_sectionPart (p := p) (r := 46 :: (bytes t.enc ++ 93 :: r)) h1 rfl (by cases t <;> rfl)
    have e2 := rt_sectionText (r := r) h2
    obtain ⟨b, bs, e3, e4⟩ := encPart_head h1
    have e5 : mapRes sectionMsgtext Section.ofMsgtext (bytes (encPart p) ++ 46 :: (bytes t.enc ++ 93 :: r)) = .error := by
      simp only [e3, List.cons_append, mapRes, sectionMsgtext_digit e4]
    rw [h4]
    simp only [List.append_assoc, List.cons_append, sectionSpec, alt_cons, orElse, e5, P.bind_apply, e1, Res.andThen_ok, opt, tag,
      if_true, e2, P.pure_apply, h3]
  · have e1 := rt_sectionPart (p := p) (r := 93 :: r) h1 rfl rfl
    obtain ⟨b, bs, e3, e4⟩ := encPart_head h1
    have e5 : mapRes sectionMsgtext Section.ofMsgtext (bytes (encPart p) ++ 93 :: r) = .error := by
      simp only [e3, List.cons_append, mapRes, sectionMsgtext_digit e4]
    simp only [Section.enc, sectionSpec, alt_cons, orElse, e5, P.bind_apply, e1, Res.andThen_ok]
    rfl

theorem rt_section {s : Option Section} {r : Bytes} (h : isSectionOpt s = true) :
    «section» (91 :: (bytes (encSectionOpt s) ++ 93 :: r)) = .ok r s := by
  cases s with
  | none => rfl
  | some s =>
    have := rt_sectionSpec (s := s) (r := r) h
    simp [«section», tag, encSectionOpt, opt, this]

omit [Quirks] in
theorem rt_sectionBinary {p : List NzU32} {r : Bytes} (h : p.all isNonZeroU32 = true) :
    sectionBinary (91 :: (bytes (encPart p) ++ 93 :: r)) = .ok r p := by
  cases hp : p.isEmpty with
  | true =>
    simp at hp
    subst hp
    rfl
  | false =>
    have := rt_sectionPart (p := p) (r := 93 :: r) (by simp [isPart, hp, h]) rfl rfl
    simp [sectionBinary, tag, opt, this]

omit [Quirks] in
theorem rt_partial {p : Option (Nat × NzU32)} {r : Bytes} (h : isPartial p = true) (hr : Stops (· == 60) r = true) :
    opt partial_ (bytes (encPartial p) ++ r) = .ok r p := by
  cases p with
  | none =>
    obtain ⟨b, bs, rfl, hb⟩ := exists_of_stops hr
    simp at hb
    simp [opt, encPartial, partial_, tag, Ne.symm hb]
  | some p =>
    obtain ⟨a, b⟩ := p
    simp only [isPartial, Bool.and_eq_true, decide_eq_true_eq, isNonZeroU32_iff] at h
    have h1 := rt_number (r := 46 :: (showNat b ++ 62 :: r)) h.1 rfl
    have h2 := rt_nzNumber (r := 62 :: r) h.2.1 h.2.2 rfl
    simp [opt, encPartial, partial_, tag, h1, h2]

/-- What must not follow a fetch item. -/
def fetchStop (b : UInt8) : Bool := isAtomChar b || b == 60

omit [Quirks] in
theorem fetchStop_atom {r : Bytes} (hr : Stops fetchStop r = true) : Stops isAtomChar r = true :=
  Stops.mono hr (by intro b; simp [fetchStop]; tauto)

omit [Quirks] in
theorem tag_stop {c : UInt8} {t r : Bytes} (hc : isAtomChar c = true) (hr : Stops isAtomChar r = true) :
    tag (c :: t) r = .error := by
  obtain ⟨b, bs, rfl, hb⟩ := exists_of_stops hr
  have : ¬ c = b := by rintro rfl; simp [hc] at hb
  simp [tag, this]

theorem rt_fetchAtt {a : MessageDataItemName} {r : Bytes} (h : a.valid = true) (hr : Stops fetchStop r = true) :
    fetchAtt (bytes a.enc ++ r) = .ok r a := by
  have hr' := fetchStop_atom hr
  have hr'' : Stops (· == 60) r = true := Stops.mono hr (by intro b; simp [fetchStop])
  cases a with
  | body =>
    have e1 := tagNC_longer (t := b!"BODY") (s := b!"TRUCTURE") (c := 83) rfl hr'
    have e2 := tagNC_longer (t := b!"BODY") (s := b!"PEEK") (c := 46) rfl hr'
    have e3 := tag_stop (c := 91) (t := []) rfl hr'
    simp only [List.cons_append, List.nil_append] at e1 e2 e3
    simp [fetchAtt, orElse, value, MessageDataItemName.enc, e1, e2]
    simp [tagNC, lower, «section», e3]
  | bodyExt s p peek =>
    simp only [MessageDataItemName.valid, Bool.and_eq_true] at h
    have e1 := rt_section (r := bytes (encPartial p) ++ r) h.1
    have e2 := rt_partial h.2 hr''
    cases peek
    · simp [fetchAtt, orElse, value, MessageDataItemName.enc, e1, e2, tagNC, lower]
    · simp [fetchAtt, orElse, value, MessageDataItemName.enc, e1, e2, tagNC, lower]
  | binary s p peek =>
    simp only [MessageDataItemName.valid, Bool.and_eq_true] at h
    have e1 := rt_sectionBinary (r := bytes (encPartial p) ++ r) h.1
    have e2 := rt_partial h.2 hr''
    cases peek
    · simp [fetchAtt, orElse, value, MessageDataItemName.enc, e1, e2, tagNC, lower]
    · simp [fetchAtt, orElse, value, MessageDataItemName.enc, e1, e2, tagNC, lower]
  | binarySize s =>
    have e1 := rt_sectionBinary (r := r) h
    have e3 : ∀ x, sectionBinary (46 :: x) = .error := fun x => rfl
    simp [fetchAtt, orElse, value, MessageDataItemName.enc, e1, tagNC, lower, e3]
  | rfc822 =>
    have e1 := tagNC_longer (t := b!"RFC822") (s := b!"HEADER") (c := 46) rfl hr'
    have e2 := tagNC_longer (t := b!"RFC822") (s := b!"SIZE") (c := 46) rfl hr'
    have e3 := tagNC_longer (t := b!"RFC822") (s := b!"TEXT") (c := 46) rfl hr'
    simp only [List.cons_append, List.nil_append] at e1 e2 e3
    simp [fetchAtt, orElse, value, MessageDataItemName.enc, e1, e2, e3]
    simp [tagNC, lower]
  | modSeq =>
    have h : Quirks.extCondstoreQresync = true := h
    simp only [fetchAtt, gate_on h]
    rfl
  | _ => rfl

end Imap
