import Verif.CommandLemmas
/-
Round trips of commands.
-/
set_option maxRecDepth 10000

namespace Imap

variable [Quirks]

omit [Quirks] in
theorem sp_cons (r : Bytes) : sp (32 :: r) = .ok r () := rfl

/-! ### Arguments -/

theorem rt_macroOrNames {a : MacroOrNames} {r : Bytes} (h : a.valid = true) (hr : Stops fetchStop r = true) :
    macroOrNames (bytes a.enc ++ r) = .ok r a := by
  have many : ∀ l : List MessageDataItemName, l.all MessageDataItemName.valid = true →
      macroOrNames (40 :: (bytes (join b!" " (l.map MessageDataItemName.enc)) ++ 41 :: r)) = .ok r (.names l) := by
    intro l hl
    have := sepList0_sp (p := fetchAtt) (e := MessageDataItemName.enc) (g := id) (F := fun r => Stops fetchStop r = true)
      (rest := 41 :: r) (l := l) (fun v hv r hr => rt_fetchAtt (by simp at hl; exact hl v hv) hr) (fun r => rfl) rfl rfl rfl
    rw [macroOrNames]
    alt_at 4
    simp [tag, this]
  cases a with
  | macro_ m => cases m <;> rfl
  | names l =>
    rcases l with _ | ⟨x, _ | ⟨y, l⟩⟩
    · exact many [] rfl
    · simp only [MacroOrNames.valid, List.all_cons, List.all_nil, Bool.and_true] at h
      have := rt_fetchAtt (a := x) h hr
      simp only [MacroOrNames.enc]
      rw [macroOrNames]
      have e : ∀ t ∈ [b!"ALL", b!"FAST", b!"FULL"], tagNC t (bytes x.enc ++ r) = .error := by
        intro t ht
        simp only [List.mem_cons, List.not_mem_nil, or_false] at ht
        rcases ht with rfl | rfl | rfl <;> cases x <;> (try rfl) <;> (next p => cases p <;> rfl)
      refine Eq.trans (alt_skip (by simp [value, e])) ?_
      refine Eq.trans (alt_skip (by simp [value, e])) ?_
      refine Eq.trans (alt_skip (by simp [value, e])) ?_
      exact alt_hit (by simp [this])
    · have := many _ h
      simpa [MacroOrNames.enc] using this

theorem SelectParameter.on {a : SelectParameter} (h : a.valid = true) : Quirks.extCondstoreQresync = true := by
  cases a
  · exact h
  · simp only [SelectParameter.valid, Bool.and_eq_true] at h
    exact h.1.1.1.1

theorem FetchModifier.on {a : FetchModifier} (h : a.valid = true) : Quirks.extCondstoreQresync = true := by
  cases a
  · simp only [FetchModifier.valid, Bool.and_eq_true] at h
    exact h.1
  · exact h

theorem isStoreModifier_on {a : StoreModifier} (h : isStoreModifier a = true) : Quirks.extCondstoreQresync = true := by
  simp only [isStoreModifier, Bool.and_eq_true] at h
  exact h.1

omit [Quirks] in
theorem on_of_ne_nil {α : Type} {l : List α} {v : α → Bool} {b : Bool} (hl : l ≠ []) (h : ∀ a ∈ l, v a = true)
    (hv : ∀ a, v a = true → b = true) : b = true := by
  cases l with
  | nil => exact absurd rfl hl
  | cons a l => exact hv a (h a (by simp))

theorem rt_selectParam {a : SelectParameter} {r : Bytes} (h : a.valid = true) :
    selectParam (bytes a.enc ++ r) = .ok r a.norm := by
  rw [selectParam, gate_on (SelectParameter.on h)]
  cases a with
  | condStore => rfl
  | qresync u m k s =>
    simp only [SelectParameter.valid, Bool.and_eq_true, isNonZeroU32_iff, isNonZeroU64_iff] at h
    obtain ⟨⟨⟨⟨-, hu⟩, hm⟩, hk⟩, hs⟩ := h
    have eu := fun r => rt_nzNumber (n := u) (r := 32 :: r) hu.1 hu.2 rfl
    have em := fun r (hr : Stops isDigit r = true) => rt_modSequenceValue (n := m) (r := r) hm.1 hm.2 hr
    alt_at 1
    cases k with
    | none =>
      rcases s with _ | ⟨a, b⟩
      · have em := em (41 :: r) rfl
        simp [SelectParameter.enc, SelectParameter.norm, qresync, tagNC, eu, em, opt, sp, char]
      · simp only [isSetPairOpt, Bool.and_eq_true] at hs
        have ea := fun r => rt_sequenceSet (r := 32 :: r) hs.1 rfl
        have eb := fun r => rt_sequenceSet (r := 41 :: r) hs.2 rfl
        have em := em (32 :: 40 :: (bytes (encSet a) ++ 32 :: (bytes (encSet b) ++ 41 :: 41 :: r))) rfl
        have ek : ∀ r, sequenceSet (40 :: r) = .error := fun r => rfl
        simp [SelectParameter.enc, SelectParameter.norm, qresync, tagNC, eu, em, opt, sp, char, ea, eb, ek]
    | some k =>
      have ek := fun r (hr : Stops setStop r = true) => rt_sequenceSet (s := k) (r := r) hk hr
      rcases s with _ | ⟨a, b⟩
      · have ek := ek (41 :: r) rfl
        have em := em (32 :: (bytes (encSet k) ++ 41 :: r)) rfl
        simp [SelectParameter.enc, SelectParameter.norm, qresync, tagNC, eu, em, opt, sp, char, ek]
      · simp only [isSetPairOpt, Bool.and_eq_true] at hs
        have ea := fun r => rt_sequenceSet (r := 32 :: r) hs.1 rfl
        have eb := fun r => rt_sequenceSet (r := 41 :: r) hs.2 rfl
        have ek := ek (32 :: 40 :: (bytes (encSet a) ++ 32 :: (bytes (encSet b) ++ 41 :: 41 :: r))) rfl
        have em := em (32 :: (bytes (encSet k) ++ 32 :: 40 :: (bytes (encSet a) ++ 32 :: (bytes (encSet b) ++ 41 :: 41 :: r)))) rfl
        simp [SelectParameter.enc, SelectParameter.norm, qresync, tagNC, eu, em, opt, sp, char, ea, eb, ek]

theorem rt_selectParams {l : List SelectParameter} {r : Bytes} (h : ∀ a ∈ l, a.valid = true) (hr : Stops (· == 32) r = true) :
    opt selectParams (bytes (encParams (l.map SelectParameter.enc)) ++ r) =
      .ok r (if l.isEmpty then none else some (l.map SelectParameter.norm)) := by
  by_cases hl : l = []
  · subst hl
    obtain ⟨b, bs, rfl, hb⟩ := exists_of_stops hr
    simp at hb
    simp [encParams, opt, selectParams, gate, tag, Ne.symm hb]
  · have := sepList1_sp (p := selectParam) (e := SelectParameter.enc) (g := SelectParameter.norm) (F := fun _ => True)
      (rest := 41 :: r) hl (fun v hv r _ => rt_selectParam (h v hv)) (fun _ => trivial) trivial rfl
    simp [encParams, opt, selectParams, gate_on (on_of_ne_nil hl h fun _ => SelectParameter.on), tag, hl, this]

theorem rt_fetchModifier {a : FetchModifier} {r : Bytes} (h : a.valid = true) (hr : Stops isDigit r = true) :
    fetchModifier (bytes a.enc ++ r) = .ok r a := by
  rw [fetchModifier, gate_on (FetchModifier.on h)]
  cases a with
  | changedSince n =>
    simp only [FetchModifier.valid, Bool.and_eq_true, isNonZeroU64_iff] at h
    alt_at 0
    simp [FetchModifier.enc, tagNC, rt_modSequenceValue h.2.1 h.2.2 hr]
  | vanished => rfl

theorem rt_fetchModifiers {l : List FetchModifier} {r : Bytes} (h : ∀ a ∈ l, a.valid = true) (hr : Stops (· == 32) r = true) :
    opt fetchModifiers (bytes (encParams (l.map FetchModifier.enc)) ++ r) = .ok r (if l.isEmpty then none else some l) := by
  by_cases hl : l = []
  · subst hl
    obtain ⟨b, bs, rfl, hb⟩ := exists_of_stops hr
    simp at hb
    simp [encParams, opt, fetchModifiers, gate, tag, Ne.symm hb]
  · have := sepList1_sp (p := fetchModifier) (e := FetchModifier.enc) (g := id) (F := fun r => Stops isDigit r = true)
      (rest := 41 :: r) hl (fun v hv r hr => rt_fetchModifier (h v hv) hr) (fun _ => rfl) rfl rfl
    simp [encParams, opt, fetchModifiers, gate_on (on_of_ne_nil hl h fun _ => FetchModifier.on), tag, char, hl, this]

theorem rt_storeModifier {a : StoreModifier} {r : Bytes} (h : isStoreModifier a = true) (hr : Stops isDigit r = true) :
    storeModifier (bytes (encStoreModifier a) ++ r) = .ok r a := by
  simp only [isStoreModifier, Bool.and_eq_true, decide_eq_true_eq] at h
  simp [storeModifier, encStoreModifier, tagNC, modSequenceValzer, rt_number64 h.2 hr, gate_on h.1]

theorem rt_storeModifiers {l : List StoreModifier} {r : Bytes} (h : ∀ a ∈ l, isStoreModifier a = true)
    (hr : Stops (· == 40) r = true) :
    opt storeModifiers (32 :: (bytes (encStoreModifiers l) ++ r)) = .ok (32 :: r) (if l.isEmpty then none else some l) := by
  by_cases hl : l = []
  · subst hl
    obtain ⟨b, bs, rfl, hb⟩ := exists_of_stops hr
    simp at hb
    simp [encStoreModifiers, opt, storeModifiers, gate, tag, Ne.symm hb]
  · have := sepList1_sp (p := storeModifier) (e := encStoreModifier) (g := id) (F := fun r => Stops isDigit r = true)
      (rest := 41 :: 32 :: r) hl (fun v hv r hr => rt_storeModifier (h v hv) hr) (fun _ => rfl) rfl rfl
    simp [encStoreModifiers, opt, storeModifiers, gate_on (on_of_ne_nil hl h fun _ => isStoreModifier_on), tag, char, hl, this]

omit [Quirks] in
theorem rt_storeAttFlags {k : StoreType} {s : StoreResponse} {fs : List Flag} {r : Bytes} (h : ∀ f ∈ fs, f.valid = true) :
    storeAttFlags (bytes k.enc ++ b!"FLAGS" ++ bytes s.enc ++ b!" (" ++ bytes (join b!" " (fs.map Flag.enc)) ++ 41 :: r) =
      .ok r (k, s, fs) := by
  have := rt_flagList (r := r) h
  cases k <;> cases s <;>
    simp [storeAttFlags, StoreType.enc, StoreResponse.enc, opt, orElse, value, tag, tagNC, lower, sp, char, this]

theorem CapabilityEnable.name_ofAtom {c : CapabilityEnable} (h : c.valid = true) :
    isAtom c.name = true ∧ CapabilityEnable.ofAtom c.name = c := by
  cases c with
  | other a => simpa [CapabilityEnable.valid, CapabilityEnable.name] using h
  | _ =>
    simp only [CapabilityEnable.valid, CapabilityEnable.present] at h
    refine ⟨rfl, ?_⟩
    simp [CapabilityEnable.ofAtom, CapabilityEnable.name, lowerAll, lower, h]

theorem rt_capabilityEnable {c : CapabilityEnable} {r : Bytes} (h : c.valid = true) (hr : Stops isAtomChar r = true) :
    capabilityEnable (bytes c.enc ++ r) = .ok r c := by
  have key := CapabilityEnable.name_ofAtom h
  simp [capabilityEnable, CapabilityEnable.enc, rt_atom key.1 hr, key.2]

omit [Quirks] in
theorem rt_resourceName {c : Resource} {r : Bytes} (h : c.valid = true) (hr : Stops isAtomChar r = true) :
    resourceName (c.name ++ r) = .ok r c := by
  have key : isAtom c.name = true ∧ Resource.ofAtom c.name = c := by
    cases c with
    | other a => simpa [Resource.valid, Resource.name] using h
    | _ => exact ⟨rfl, rfl⟩
  simp [resourceName, rt_atom key.1 hr, key.2]

omit [Quirks] in
theorem rt_setquotaResource {c : QuotaSet} {r : Bytes} (h : c.valid = true) (hr : Stops isDigit r = true) :
    setquotaResource (bytes c.enc ++ r) = .ok r c := by
  simp only [QuotaSet.valid, Bool.and_eq_true, decide_eq_true_eq] at h
  have e1 := rt_resourceName (r := 32 :: (showNat c.limit ++ r)) h.1 rfl
  simp [setquotaResource, QuotaSet.enc, e1, sp, char, rt_number64 h.2 hr]

omit [Quirks] in
theorem rt_threadAlg {c : ThreadingAlgorithm} {r : Bytes} (h : c.valid = true) (hr : Stops isAtomChar r = true) :
    threadAlg (c.name ++ r) = .ok r c := by
  have key : isAtom c.name = true ∧ ThreadingAlgorithm.ofAtom c.name = c := by
    cases c with
    | other a => simpa [ThreadingAlgorithm.valid, ThreadingAlgorithm.name] using h
    | _ => exact ⟨rfl, rfl⟩
  simp [threadAlg, rt_atom key.1 hr, key.2]

omit [Quirks] in
theorem rt_sortCriterion {c : SortCriterion} {r : Bytes} : sortCriterion (bytes c.enc ++ r) = .ok r c := by
  rcases c with ⟨_ | _, k⟩ <;> cases k <;> rfl

omit [Quirks] in
theorem rt_sortCriteria {l : List SortCriterion} {r : Bytes} (hl : l ≠ []) :
    sortCriteria (40 :: (bytes (join b!" " (l.map SortCriterion.enc)) ++ 41 :: r)) = .ok r l := by
  have := sepList1_sp (p := sortCriterion) (e := SortCriterion.enc) (g := id) (F := fun _ => True)
    (rest := 41 :: r) hl (fun v _ r _ => rt_sortCriterion) (fun _ => trivial) trivial rfl
  simp [sortCriteria, tag, this]

theorem rt_idParam {x : IString × NString} {r : Bytes} (h : isIdParam x = true) (hr : r ≠ []) :
    idParam (bytes (encIdParam x) ++ r) = .ok r x := by
  simp only [isIdParam, Bool.and_eq_true] at h
  have e1 := rt_string (s := x.1) (r := 32 :: (bytes (encNString x.2) ++ r)) h.1 (by simp)
  simp [idParam, encIdParam, e1, sp, char, rt_nstring h.2 hr]

theorem rt_idParamsList {o : Option IdParams} {r : Bytes} (h : isIdParamsOpt o = true) :
    idParamsList (bytes (encIdParams o) ++ r) = .ok r (if o = some [] ∧ Quirks.idEmptyToNil then none else o) := by
  have many : ∀ l : IdParams, l.all isIdParam = true →
      idParamsList (40 :: (bytes (join b!" " (l.map encIdParam)) ++ 41 :: r)) = .ok r (some l) := by
    intro l hl
    have := sepList0_sp (p := idParam) (e := encIdParam) (g := id) (F := fun r => r ≠ [])
      (rest := 41 :: r) (l := l) (fun v hv r hr => rt_idParam (by simp at hl; exact hl v.1 v.2 hv) hr) (by simp) (by simp) rfl rfl
    rw [idParamsList]
    refine alt_hit ?_
    simp only [P.map_apply, P.bind_apply]
    simp only [show ∀ r, tag [40] (40 :: r) = .ok r () from fun _ => rfl, Res.andThen_ok, P.bind_apply, this]
    split <;> simp [opt, sp_cons, tag, show sp (41 :: r) = .error from rfl]
  rcases o with _ | _ | ⟨x, l⟩
  · rfl
  · simp only [encIdParams]
    by_cases hq : (Quirks.idEmptyToNil : Bool) = true
    · simp only [hq, and_self, if_true]
      rfl
    · simp only [hq]
      exact many [] rfl
  · have := many _ h
    simpa [encIdParams] using this

theorem rt_imapValue {v : NString8} {r : Bytes} (h : v.valid = true) (hr : r ≠ []) : imapValue (bytes v.enc ++ r) = .ok r v := by
  rw [imapValue]
  cases v with
  | nstring s => exact alt_hit (by simp [NString8.enc, rt_nstring (s := s) h hr])
  | literal8 l =>
    have := rt_literal8 (l := l) h hr
    rw [NString8.enc]
    refine Eq.trans (alt_skip ?_) (alt_hit (by simp [this]))
    obtain ⟨d, m⟩ := l
    cases m <;> rfl

theorem rt_entryValue {e : EntryValue} {r : Bytes} (h : e.valid = true) (hr : r ≠ []) :
    entryValue (bytes e.enc ++ r) = .ok r e := by
  simp only [EntryValue.valid, Bool.and_eq_true] at h
  have e1 := rt_astring (s := e.entry) (r := 32 :: (bytes e.value.enc ++ r)) h.1 rfl
  simp [entryValue, EntryValue.enc, entry, e1, sp, char, rt_imapValue h.2 hr]

theorem rt_entryValues {l : List EntryValue} {r : Bytes} (hl : l ≠ []) (h : ∀ e ∈ l, e.valid = true) :
    entryValues (40 :: (bytes (join b!" " (l.map EntryValue.enc)) ++ 41 :: r)) = .ok r l := by
  have := sepList1_sp (p := entryValue) (e := EntryValue.enc) (g := id) (F := fun r => r ≠ [])
    (rest := 41 :: r) hl (fun v hv r hr => rt_entryValue (h v hv) hr) (by simp) (by simp) rfl
  simp [entryValues, tag, this]

theorem rt_entries {l : List Entry} {r : Bytes} (hl : l ≠ []) (h : ∀ e ∈ l, AString.valid e = true) (hr : Stops isAStringChar r = true) :
    entries (bytes (encEntries l) ++ r) = .ok r l := by
  rw [entries]
  rcases l with _ | ⟨x, _ | ⟨y, l⟩⟩
  · exact absurd rfl hl
  · exact alt_hit (by simp [encEntries, entry, rt_astring (h x (by simp)) hr])
  · have := sepList1_sp (p := entry) (e := AString.enc) (g := id) (F := fun r => Stops isAStringChar r = true)
      (rest := 41 :: r) hl (fun v hv r hr => by rw [entry]; exact rt_astring (h v hv) hr) (fun _ => rfl) rfl rfl
    alt_at 1
    simp only [List.map_cons, List.map_id, id] at this
    simp [encEntries, tag, this]

omit [Quirks] in
theorem rt_getmetadataOption {a : GetMetadataOption} {r : Bytes} (h : a.valid = true) (hr : Stops isDigit r = true) :
    getmetadataOption (bytes a.enc ++ r) = .ok r a := by
  rw [getmetadataOption]
  cases a with
  | maxSize n =>
    simp only [GetMetadataOption.valid, decide_eq_true_eq] at h
    refine alt_hit ?_
    simp [GetMetadataOption.enc, tagNC, rt_number h hr]
  | _ => rfl

omit [Quirks] in
theorem rt_getmetadataOptions {l : List GetMetadataOption} {r : Bytes} (h : ∀ a ∈ l, a.valid = true) (hr : Stops (· == 40) r = true) :
    opt (do sp; getmetadataOptions) (bytes (encParams (l.map GetMetadataOption.enc)) ++ 32 :: r) =
      .ok (32 :: r) (if l.isEmpty then none else some l) := by
  by_cases hl : l = []
  · subst hl
    obtain ⟨b, bs, rfl, hb⟩ := exists_of_stops hr
    simp at hb
    simp [encParams, opt, getmetadataOptions, sp, char, tag, Ne.symm hb]
  · have := sepList1_sp (p := getmetadataOption) (e := GetMetadataOption.enc) (g := id) (F := fun r => Stops isDigit r = true)
      (rest := 41 :: 32 :: r) hl (fun v hv r hr => rt_getmetadataOption (h v hv) hr) (fun _ => rfl) rfl rfl
    simp [encParams, opt, getmetadataOptions, sp_cons, tag, hl, this]

omit [Quirks] in
theorem getD_ite {α : Type} {l : List α} : (if l.isEmpty then none else some l).getD [] = l := by
  cases l <;> rfl

/-- Mailboxes do not start with a parenthesis. -/
theorem mailbox_head {m : Mailbox} {r : Bytes} (h : m.valid = true) : Stops (· == 40) (bytes m.enc ++ r) = true := by
  have := rt_mailbox (m := m) (r := 32 :: []) h rfl
  cases e : bytes m.enc with
  | nil => rw [e] at this; simp [mailbox] at this; cases this
  | cons b bs =>
    rw [e] at this
    by_cases hb : b = 40
    · subst hb
      have e : mailbox (40 :: (bs ++ [32])) = .error := rfl
      rw [List.cons_append, e] at this
      cases this
    · simp [hb]

/-- Search keys do not start with CHARSET. -/
theorem searchKey_charset {k : SearchKey} {r : Bytes} (h : k.valid = true) : tagNC b!"CHARSET" (bytes k.enc ++ r) = .error := by
  cases k with
  | sequenceSet s =>
    obtain ⟨b, bs, h1, h2⟩ := encSet_head h
    have h3 : isLetter b = false := by
      have key : ∀ b, isDigit b = true → isLetter b = false := forall_byte (by decide)
      rcases h2 with h2 | rfl
      · exact key b h2
      · rfl
    simp only [SearchKey.enc]
    rw [h1]
    exact tagNC_nonletter h3 (by decide) (by decide)
  | modSequence e m => rcases e with _ | ⟨f, t⟩ <;> rfl
  | _ => rfl

theorem rt_keys {l : List SearchKey} {r : Bytes} (h : isCriteria l = true) :
    sepList1 sp (searchKey 9) (bytes (encKeys l) ++ 13 :: r) = .ok (13 :: r) (l.map SearchKey.norm) := by
  rw [isCriteria_iff] at h
  exact sepList1_sp (F := fun r => Stops isAStringChar r = true) h.1
    (fun k hk r hr => rt_searchKey 9 k r (h.2 k hk).1 (h.2 k hk).2 hr) (fun _ => rfl) rfl rfl

theorem rt_searchCriteria {c : Charset} {l : List SearchKey} {r : Bytes} (hc : c.valid = true) (h : isCriteria l = true) :
    searchCriteria (bytes c.enc ++ 32 :: (bytes (encKeys l) ++ 13 :: r)) = .ok (13 :: r) (c, l.map SearchKey.norm) := by
  have e1 := rt_charset (s := c) (r := 32 :: (bytes (encKeys l) ++ 13 :: r)) hc rfl
  simp [searchCriteria, e1, sp_cons, rt_keys h]

/-! ### Commands -/

theorem rt_append {m : Mailbox} {fs : List Flag} {d : Option DateTime} {msg : LiteralOrLiteral8} {r : Bytes}
    (h : (CommandBody.append m fs d msg).valid = true) :
    append (bytes (CommandBody.append m fs d msg).enc ++ 13 :: r) = .ok (13 :: r) (.append m fs d msg) := by
  simp only [CommandBody.valid, Bool.and_eq_true] at h
  obtain ⟨⟨⟨hm, hfs⟩, hd⟩, hmsg⟩ := h
  have e1 := fun r => rt_mailbox (r := 32 :: r) hm rfl
  -- the message
  have e4 : alt [LiteralOrLiteral8.literal <$> literal, .literal8 <$> literal8] (bytes msg.enc ++ 13 :: r) = .ok (13 :: r) msg := by
    cases msg with
    | literal l => exact alt_hit (by simp [LiteralOrLiteral8.enc, rt_literal (l := l) hmsg])
    | literal8 l =>
      refine Eq.trans (alt_skip ?_) (alt_hit (by simp [LiteralOrLiteral8.enc, rt_literal8 (l := l) hmsg]))
      obtain ⟨d, m⟩ := l
      cases m <;> rfl
  have hmsg' : Stops (fun b => b == 34 || b == 40) (bytes msg.enc ++ 13 :: r) = true := by
    cases msg with
    | literal l => obtain ⟨d, m⟩ := l; cases m <;> rfl
    | literal8 l => obtain ⟨d, m⟩ := l; cases m <;> rfl
  obtain ⟨b, bs, eb, hb⟩ := exists_of_stops hmsg'
  simp only [Bool.or_eq_false_iff, beq_eq_false_iff_ne] at hb
  -- the date
  have e3 : opt (do sp; dateTime) (bytes (encDateOpt d) ++ 32 :: (bytes msg.enc ++ 13 :: r)) =
      .ok (32 :: (bytes msg.enc ++ 13 :: r)) d := by
    cases d with
    | none =>
      rw [eb]
      simp [encDateOpt, opt, sp_cons, dateTime, dquote, char, hb.1]
    | some d => simp [encDateOpt, opt, sp_cons, rt_dateTime (t := d) hd]
  have hd' : ∃ bs, bytes (encDateOpt d) ++ 32 :: (bytes msg.enc ++ 13 :: r) = 32 :: bs ∧ Stops (· == 40) bs = true := by
    cases d with
    | none => exact ⟨_, rfl, by rw [eb]; simp [hb.2]⟩
    | some d => exact ⟨_, rfl, rfl⟩
  obtain ⟨ds, eds, hds⟩ := hd'
  have e2 : opt (do sp; flagList) (bytes (encParams (fs.map Flag.enc)) ++ 32 :: ds) =
      .ok (32 :: ds) (if fs.isEmpty then none else some fs) := by
    by_cases hl : fs = []
    · subst hl
      obtain ⟨c, cs, rfl, hc⟩ := exists_of_stops hds
      simp at hc
      simp [encParams, opt, sp_cons, flagList, tag, Ne.symm hc]
    · have := rt_flagList (l := fs) (r := 32 :: ds) (by simpa using hfs)
      simp [encParams, opt, sp_cons, hl, this]
  have e5 : bytes (CommandBody.append m fs d msg).enc ++ 13 :: r =
      b!"APPEND " ++ (bytes m.enc ++ (bytes (encParams (fs.map Flag.enc)) ++
        (bytes (encDateOpt d) ++ 32 :: (bytes msg.enc ++ 13 :: r)))) := by
    simp [CommandBody.enc]
  have e6 : ∃ cs, bytes (encParams (fs.map Flag.enc)) ++ 32 :: ds = 32 :: cs := by
    by_cases hl : fs = []
    · subst hl; exact ⟨ds, rfl⟩
    · exact ⟨_, by simp [encParams, hl]; rfl⟩
  obtain ⟨cs, ecs⟩ := e6
  rw [e5]
  simp only [append, P.bind_apply, tagNC_append, Res.andThen_ok]
  rw [eds, ecs, e1, Res.andThen_ok, P.bind_apply, ← ecs, e2, Res.andThen_ok, P.bind_apply, ← eds, e3]
  simp only [Res.andThen_ok, P.bind_apply, sp_cons, e4, getD_ite]
  rfl

theorem rt_select {m : Mailbox} {ps : List SelectParameter} {r : Bytes} (hm : m.valid = true) (hps : ps.all SelectParameter.valid = true) :
    select (bytes (CommandBody.select m ps).enc ++ 13 :: r) = .ok (13 :: r) (.select m (ps.map SelectParameter.norm)) := by
  have e2 := rt_selectParams (l := ps) (r := 13 :: r) (by simpa using hps) rfl
  have e1 : mailbox (bytes m.enc ++ (bytes (encParams (ps.map SelectParameter.enc)) ++ 13 :: r)) =
      .ok (bytes (encParams (ps.map SelectParameter.enc)) ++ 13 :: r) m :=
    rt_mailbox hm (by cases ps <;> rfl)
  simp [CommandBody.enc, select, tagNC, e1, e2]
  cases ps <;> rfl

theorem rt_examine {m : Mailbox} {ps : List SelectParameter} {r : Bytes} (hm : m.valid = true)
    (hps : ps.all SelectParameter.valid = true) :
    examine (bytes (CommandBody.examine m ps).enc ++ 13 :: r) = .ok (13 :: r) (.examine m (ps.map SelectParameter.norm)) := by
  have e2 := rt_selectParams (l := ps) (r := 13 :: r) (by simpa using hps) rfl
  have e1 : mailbox (bytes m.enc ++ (bytes (encParams (ps.map SelectParameter.enc)) ++ 13 :: r)) =
      .ok (bytes (encParams (ps.map SelectParameter.enc)) ++ 13 :: r) m :=
    rt_mailbox hm (by cases ps <;> rfl)
  simp [CommandBody.enc, examine, tagNC, e1, e2]
  cases ps <;> rfl

theorem rt_status {m : Mailbox} {l : List StatusDataItemName} {r : Bytes} (hm : m.valid = true)
    (hl : l.all StatusDataItemName.valid = true) :
    status (bytes (CommandBody.status m l).enc ++ 13 :: r) = .ok (13 :: r) (.status m l) := by
  have e2 := sepList0_sp (p := statusAtt) (e := StatusDataItemName.enc) (g := id) (F := fun r => Stops isAtomChar r = true)
    (rest := 41 :: 13 :: r) (l := l) (fun v hv r hr => rt_statusAtt (List.all_eq_true.1 hl v hv) hr) (fun _ => rfl) rfl rfl rfl
  have e1 := fun r => rt_mailbox (r := 32 :: r) hm rfl
  simp [CommandBody.enc, status, tagNC, tag, e1, e2]

theorem rt_enable {l : List CapabilityEnable} {r : Bytes} (hl : l ≠ []) (h : ∀ c ∈ l, c.valid = true) :
    many1 (do sp; capabilityEnable) (32 :: (bytes (join b!" " (l.map CapabilityEnable.enc)) ++ 13 :: r)) = .ok (13 :: r) l := by
  have := sepList1_sp (p := capabilityEnable) (e := CapabilityEnable.enc) (g := id) (F := fun r => Stops isAtomChar r = true)
    (rest := 13 :: r) hl (fun v hv r hr => rt_capabilityEnable (h v hv) hr) (fun _ => rfl) rfl rfl
  simp only [sepList1, P.bind_apply] at this
  simpa [many1, sp_cons] using this

theorem rt_setquota {x : AString} {l : List QuotaSet} {r : Bytes} (hx : x.valid = true) (h : ∀ c ∈ l, c.valid = true) :
    setquota (bytes (CommandBody.setQuota x l).enc ++ 13 :: r) = .ok (13 :: r) (.setQuota x l) := by
  have e2 := sepList0_sp (p := setquotaResource) (e := QuotaSet.enc) (g := id) (F := fun r => Stops isDigit r = true)
    (rest := 41 :: 13 :: r) (l := l) (fun v hv r hr => rt_setquotaResource (h v hv) hr) (fun _ => rfl) rfl rfl rfl
  have e1 := fun r => rt_astring (r := 32 :: r) hx rfl
  simp [CommandBody.enc, setquota, tagNC, tag, e1, e2]

theorem rt_setmetadata {m : Mailbox} {l : List EntryValue} {r : Bytes} (hm : m.valid = true) (hl : l ≠ []) (h : ∀ c ∈ l, c.valid = true) :
    setmetadata (bytes (CommandBody.setMetadata m l).enc ++ 13 :: r) = .ok (13 :: r) (.setMetadata m l) := by
  have e2 := rt_entryValues (r := 13 :: r) hl h
  have e1 := fun r => rt_mailbox (r := 32 :: r) hm rfl
  simp [CommandBody.enc, setmetadata, tagNC, sp_cons, e1, e2]

theorem rt_getmetadata {os : List GetMetadataOption} {m : Mailbox} {l : List Entry} {r : Bytes} (hos : ∀ o ∈ os, o.valid = true)
    (hm : m.valid = true) (hl : l ≠ []) (h : ∀ c ∈ l, AString.valid c = true) :
    getmetadata (bytes (CommandBody.getMetadata os m l).enc ++ 13 :: r) = .ok (13 :: r) (.getMetadata os m l) := by
  have e3 := rt_entries (r := 13 :: r) hl h rfl
  have e2 := fun r => rt_mailbox (r := 32 :: r) hm rfl
  have e1 := rt_getmetadataOptions (l := os) (r := bytes m.enc ++ 32 :: (bytes (encEntries l) ++ 13 :: r)) hos (mailbox_head hm)
  have e : bytes (CommandBody.getMetadata os m l).enc ++ 13 :: r = b!"GETMETADATA" ++
      (bytes (encParams (os.map GetMetadataOption.enc)) ++ 32 :: (bytes m.enc ++ 32 :: (bytes (encEntries l) ++ 13 :: r))) := by
    simp [CommandBody.enc]
  rw [e]
  simp only [getmetadata, P.bind_apply, tagNC_append, Res.andThen_ok, e1, sp_cons, e2, e3, getD_ite]
  rfl

theorem rt_authenticate {m : AuthMechanism} {d : Option Bytes} {r : Bytes} (h : m.valid = true) :
    authenticate (bytes (CommandBody.authenticate m d).enc ++ 13 :: r) = .ok (13 :: r) (.authenticate m d) := by
  cases d with
  | none =>
    have e1 := rt_authType (r := 13 :: r) h rfl
    simp [CommandBody.enc, encInitialResponse, authenticate, tagNC, e1, opt, sp, char]
  | some d =>
    have e1 := fun r => rt_authType (r := 32 :: r) h rfl
    cases d with
    | nil =>
      have e2 : base64 (61 :: 13 :: r) = .error := by
        simp [base64, recognize, takeWhile, opt, orElse, tag, mapRes, show isBase64Char 61 = false from rfl, show b64Decode [61] = none from rfl]
      simp [CommandBody.enc, encInitialResponse, authenticate, tagNC, e1, opt, sp_cons, orElse, e2, value, tag]
    | cons b bs =>
      have e2 := rt_base64 (d := b :: bs) (r := 13 :: r) rfl
      simp [CommandBody.enc, encInitialResponse, authenticate, tagNC, e1, opt, sp_cons, orElse, e2]

theorem rt_copy {s : SequenceSet} {m : Mailbox} {r : Bytes} (hs : s.wf = true) (hm : m.valid = true) :
    copy (b!"COPY " ++ (bytes (encSet s) ++ 32 :: (bytes m.enc ++ 13 :: r))) = .ok (13 :: r) (.copy (normSet s) m false) := by
  have e1 := fun r => rt_sequenceSet (r := 32 :: r) hs rfl
  have e2 := rt_mailbox (r := 13 :: r) hm rfl
  simp [copy, tagNC, sp_cons, e1, e2]

theorem rt_move {s : SequenceSet} {m : Mailbox} {r : Bytes} (hs : s.wf = true) (hm : m.valid = true) :
    move (b!"MOVE " ++ (bytes (encSet s) ++ 32 :: (bytes m.enc ++ 13 :: r))) = .ok (13 :: r) (.move (normSet s) m false) := by
  have e1 := fun r => rt_sequenceSet (r := 32 :: r) hs rfl
  have e2 := rt_mailbox (r := 13 :: r) hm rfl
  simp [move, tagNC, sp_cons, e1, e2]

theorem rt_fetch {s : SequenceSet} {i : MacroOrNames} {ms : List FetchModifier} {r : Bytes} (hs : s.wf = true) (hi : i.valid = true)
    (hms : ∀ m ∈ ms, m.valid = true) :
    fetch (b!"FETCH " ++ (bytes (encSet s) ++ 32 :: (bytes i.enc ++ (bytes (encParams (ms.map FetchModifier.enc)) ++ 13 :: r)))) =
      .ok (13 :: r) (.fetch (normSet s) i false ms) := by
  have e1 := fun r => rt_sequenceSet (r := 32 :: r) hs rfl
  have e2 : macroOrNames (bytes i.enc ++ (bytes (encParams (ms.map FetchModifier.enc)) ++ 13 :: r)) =
      .ok (bytes (encParams (ms.map FetchModifier.enc)) ++ 13 :: r) i := rt_macroOrNames hi (by cases ms <;> rfl)
  have e3 := rt_fetchModifiers (r := 13 :: r) hms rfl
  simp only [fetch, P.bind_apply]
  simp [tagNC, sp_cons, e1, e2, e3]
  cases ms <;> rfl

theorem rt_store {s : SequenceSet} {k : StoreType} {x : StoreResponse} {fs : List Flag} {ms : List StoreModifier} {r : Bytes}
    (hs : s.wf = true) (hfs : ∀ f ∈ fs, f.valid = true) (hms : ∀ m ∈ ms, isStoreModifier m = true) :
    store (b!"STORE " ++ (bytes (encSet s) ++ 32 :: (bytes (encStoreModifiers ms) ++ (bytes k.enc ++ (b!"FLAGS" ++ (bytes x.enc ++
      (b!" (" ++ (bytes (join b!" " (fs.map Flag.enc)) ++ 41 :: 13 :: r)))))))) =
      .ok (13 :: r) (.store (normSet s) k x fs false ms) := by
  have e1 := fun r => rt_sequenceSet (r := 32 :: r) hs rfl
  have e3 := rt_storeAttFlags (k := k) (s := x) (r := 13 :: r) hfs
  simp only [List.append_assoc] at e3
  have e2 := rt_storeModifiers (l := ms) (r := bytes k.enc ++ (b!"FLAGS" ++ (bytes x.enc ++ (b!" (" ++
    (bytes (join b!" " (fs.map Flag.enc)) ++ 41 :: 13 :: r))))) hms (by cases k <;> rfl)
  simp only [store, P.bind_apply]
  simp only [show ∀ r, tagNC b!"STORE" (b!"STORE " ++ r) = .ok (32 :: r) () from fun _ => rfl, Res.andThen_ok, P.bind_apply, sp_cons, e1,
    e2, e3, getD_ite]
  rfl

theorem rt_search {c : Option Charset} {l : List SearchKey} {r : Bytes} (hc : isCharsetOpt c = true) (h : isCriteria l = true) :
    search (b!"SEARCH" ++ (bytes (encCharsetOpt c) ++ 32 :: (bytes (encKeys l) ++ 13 :: r))) =
      .ok (13 :: r) (.search c (l.map SearchKey.norm) false) := by
  have e2 := rt_keys (r := r) h
  have e1 : opt (do sp; tagNC b!"CHARSET"; sp; charset) (bytes (encCharsetOpt c) ++ 32 :: (bytes (encKeys l) ++ 13 :: r)) =
      .ok (32 :: (bytes (encKeys l) ++ 13 :: r)) c := by
    cases c with
    | none =>
      have : tagNC b!"CHARSET" (bytes (encKeys l) ++ 13 :: r) = .error := by
        have h := isCriteria_iff.1 h
        cases l with
        | nil => exact absurd rfl h.1
        | cons k l =>
          have := searchKey_charset (k := k) (r := bytes (l.map SearchKey.enc).flatten) (h.2 k (by simp)).1
          simp only [encKeys, List.map_cons, bytes_join, List.append_assoc]
          exact searchKey_charset (h.2 k (by simp)).1
      simp [encCharsetOpt, opt, sp_cons, this]
    | some c =>
      have := rt_charset (s := c) (r := 32 :: (bytes (encKeys l) ++ 13 :: r)) hc rfl
      simp [encCharsetOpt, opt, sp_cons, this, tagNC]
  simp only [search, P.bind_apply, tagNC_append, Res.andThen_ok, e1, sp_cons, e2]
  rfl

theorem rt_sort {s : List SortCriterion} {c : Charset} {l : List SearchKey} {u : Bool} {r : Bytes} (hs : s ≠ []) (hc : c.valid = true)
    (h : isCriteria l = true) :
    sort (bytes (CommandBody.sort s c l u).enc ++ 13 :: r) = .ok (13 :: r) (.sort s c (l.map SearchKey.norm) u) := by
  have e1 := fun r => rt_sortCriteria (r := r) hs
  have e2 := rt_searchCriteria (r := r) hc h
  cases u <;> simp [CommandBody.enc, encUid, sort, opt, tagNC, lower, e1, sp_cons, e2]

theorem rt_thread {a : ThreadingAlgorithm} {c : Charset} {l : List SearchKey} {u : Bool} {r : Bytes} (ha : a.valid = true)
    (hc : c.valid = true) (h : isCriteria l = true) :
    thread (bytes (CommandBody.thread a c l u).enc ++ 13 :: r) = .ok (13 :: r) (.thread a c (l.map SearchKey.norm) u) := by
  have e1 := fun r => rt_threadAlg (r := 32 :: r) ha rfl
  have e2 := rt_searchCriteria (r := r) hc h
  cases u <;> simp [CommandBody.enc, encUid, thread, opt, tagNC, lower, e1, sp_cons, e2]

/-- The round trip of the body of a command. -/
theorem rt_commandAlt {c : CommandBody} {r : Bytes} (h : c.valid = true) :
    alt [commandAny, commandAuth, commandNonauth, commandSelect] (bytes c.enc ++ 13 :: r) = .ok (13 :: r) c.norm := by
  cases c with
  | capability => rfl
  | noop => rfl
  | logout => rfl
  | startTls =>
    have h : Quirks.starttls = true := h
    simp only [commandNonauth, gate_on h]
    rfl
  | authenticate m d =>
    alt_at 2
    rw [commandNonauth]
    alt_at 1
    exact rt_authenticate h
  | login u p =>
    simp only [CommandBody.valid, Bool.and_eq_true] at h
    have e1 := fun r => rt_astring (r := 32 :: r) h.1 rfl
    have e2 := rt_astring (r := 13 :: r) h.2 rfl
    alt_at 2
    rw [commandNonauth]
    alt_at 0
    simp [CommandBody.enc, CommandBody.norm, login, tagNC, sp_cons, e1, e2]
  | select m ps =>
    simp only [CommandBody.valid, Bool.and_eq_true] at h
    alt_at 1
    rw [commandAuth]
    alt_at 7
    exact rt_select h.1 h.2
  | unselect => rfl
  | examine m ps =>
    simp only [CommandBody.valid, Bool.and_eq_true] at h
    alt_at 1
    rw [commandAuth]
    alt_at 3
    exact rt_examine h.1 h.2
  | create m =>
    have e := rt_mailbox (m := m) (r := 13 :: r) h rfl
    alt_at 1
    rw [commandAuth]
    alt_at 1
    simp [CommandBody.enc, CommandBody.norm, create, tagNC, e]
  | delete m =>
    have e := rt_mailbox (m := m) (r := 13 :: r) h rfl
    alt_at 1
    rw [commandAuth]
    alt_at 2
    simp [CommandBody.enc, CommandBody.norm, delete, tagNC, e]
  | rename a b =>
    simp only [CommandBody.valid, Bool.and_eq_true] at h
    have e1 := fun r => rt_mailbox (r := 32 :: r) h.1 rfl
    have e2 := rt_mailbox (r := 13 :: r) h.2 rfl
    alt_at 1
    rw [commandAuth]
    alt_at 6
    simp [CommandBody.enc, CommandBody.norm, rename, tagNC, sp_cons, e1, e2]
  | subscribe m =>
    have e := rt_mailbox (m := m) (r := 13 :: r) h rfl
    alt_at 1
    rw [commandAuth]
    alt_at 9
    simp [CommandBody.enc, CommandBody.norm, subscribe, tagNC, e]
  | unsubscribe m =>
    have e := rt_mailbox (m := m) (r := 13 :: r) h rfl
    alt_at 1
    rw [commandAuth]
    alt_at 10
    simp [CommandBody.enc, CommandBody.norm, unsubscribe, tagNC, e]
  | list a b =>
    simp only [CommandBody.valid, Bool.and_eq_true] at h
    have e1 := fun r => rt_mailbox (r := 32 :: r) h.1 rfl
    have e2 := rt_listMailbox (r := 13 :: r) h.2 rfl
    alt_at 1
    rw [commandAuth]
    alt_at 4
    simp [CommandBody.enc, CommandBody.norm, list, tagNC, sp_cons, e1, e2]
  | lsub a b =>
    simp only [CommandBody.valid, Bool.and_eq_true] at h
    have e1 := fun r => rt_mailbox (r := 32 :: r) h.1 rfl
    have e2 := rt_listMailbox (r := 13 :: r) h.2 rfl
    alt_at 1
    rw [commandAuth]
    alt_at 5
    simp [CommandBody.enc, CommandBody.norm, lsub, tagNC, sp_cons, e1, e2]
  | status m l =>
    simp only [CommandBody.valid, Bool.and_eq_true] at h
    alt_at 1
    rw [commandAuth]
    alt_at 8
    exact rt_status h.1 h.2
  | append m fs d msg =>
    alt_at 1
    rw [commandAuth]
    alt_at 0
    exact rt_append h
  | check => rfl
  | close => rfl
  | expunge => rfl
  | expungeUid s =>
    have e := rt_sequenceSet (s := s) (r := 13 :: r) h rfl
    alt_at 3
    rw [commandSelect]
    alt_at 3
    simp [CommandBody.enc, CommandBody.norm, uidExpunge, tagNC, e]
  | search c l u =>
    simp only [CommandBody.valid, Bool.and_eq_true] at h
    have e := rt_search (r := r) h.1 h.2
    simp only [List.cons_append, List.nil_append] at e
    cases u with
    | false =>
      alt_at 3
      rw [commandSelect]
      alt_at 8
      simpa [CommandBody.enc, CommandBody.norm, encUid] using e
    | true =>
      alt_at 3
      rw [commandSelect]
      alt_at 7
      simp only [uid, P.bind_apply]
      simp [CommandBody.enc, encUid, tagNC, sp_cons]
      refine mapRes_ok (v := .search c (l.map SearchKey.norm) false) ?_ rfl
      rw [uidBody]
      alt_at 2
      exact e
  | sort s c l u =>
    simp only [CommandBody.valid, Bool.and_eq_true] at h
    have e := rt_sort (u := u) (r := r) (by simpa using h.1.1) h.1.2 h.2
    cases u <;>
    · alt_at 3
      rw [commandSelect]
      alt_at 9
      exact e
  | thread a c l u =>
    simp only [CommandBody.valid, Bool.and_eq_true] at h
    have e := rt_thread (u := u) (r := r) h.1.1 h.1.2 h.2
    cases u <;>
    · alt_at 3
      rw [commandSelect]
      alt_at 10
      exact e
  | fetch s i u ms =>
    simp only [CommandBody.valid, Bool.and_eq_true, List.all_eq_true] at h
    have e := rt_fetch (r := r) h.1.1 h.1.2 h.2
    simp only [List.cons_append, List.nil_append] at e
    cases u with
    | false =>
      alt_at 3
      rw [commandSelect]
      alt_at 5
      simpa [CommandBody.enc, CommandBody.norm, encUid] using e
    | true =>
      alt_at 3
      rw [commandSelect]
      alt_at 7
      simp only [uid, P.bind_apply]
      simp [CommandBody.enc, encUid, tagNC, sp_cons]
      refine mapRes_ok (v := .fetch (normSet s) i false ms) ?_ rfl
      rw [uidBody]
      alt_at 1
      exact e
  | store s k x fs u ms =>
    simp only [CommandBody.valid, Bool.and_eq_true, List.all_eq_true] at h
    have e := rt_store (k := k) (x := x) (r := r) h.1.1 h.1.2 h.2
    simp only [List.cons_append, List.nil_append] at e
    cases u with
    | false =>
      alt_at 3
      rw [commandSelect]
      alt_at 6
      simpa [CommandBody.enc, CommandBody.norm, encUid] using e
    | true =>
      alt_at 3
      rw [commandSelect]
      alt_at 7
      simp only [uid, P.bind_apply]
      simp [CommandBody.enc, encUid, tagNC, sp_cons]
      refine mapRes_ok (v := .store (normSet s) k x fs false ms) ?_ rfl
      rw [uidBody]
      alt_at 3
      exact e
  | copy s m u =>
    simp only [CommandBody.valid, Bool.and_eq_true] at h
    have e := rt_copy (r := r) h.1 h.2
    simp only [List.cons_append, List.nil_append] at e
    cases u with
    | false =>
      alt_at 3
      rw [commandSelect]
      alt_at 4
      simpa [CommandBody.enc, CommandBody.norm, encUid] using e
    | true =>
      alt_at 3
      rw [commandSelect]
      alt_at 7
      simp only [uid, P.bind_apply]
      simp [CommandBody.enc, encUid, tagNC, sp_cons]
      refine mapRes_ok (v := .copy (normSet s) m false) ?_ rfl
      rw [uidBody]
      alt_at 0
      exact e
  | idle => rfl
  | enable l =>
    simp only [CommandBody.valid, Bool.and_eq_true, List.all_eq_true, Bool.not_eq_true', List.isEmpty_eq_false_iff] at h
    have e := rt_enable (r := r) h.1 h.2
    alt_at 1
    rw [commandAuth]
    alt_at 12
    simp [CommandBody.enc, CommandBody.norm, enable, tagNC, e]
  | compress => rfl
  | getQuota x =>
    have e := rt_astring (s := x) (r := 13 :: r) h rfl
    alt_at 1
    rw [commandAuth]
    alt_at 14
    simp [CommandBody.enc, CommandBody.norm, getquota, tagNC, e]
  | getQuotaRoot m =>
    have e := rt_mailbox (m := m) (r := 13 :: r) h rfl
    alt_at 1
    rw [commandAuth]
    alt_at 15
    simp [CommandBody.enc, CommandBody.norm, getquotaroot, tagNC, e]
  | setQuota x l =>
    simp only [CommandBody.valid, Bool.and_eq_true, List.all_eq_true] at h
    alt_at 1
    rw [commandAuth]
    alt_at 16
    exact rt_setquota h.1 h.2
  | move s m u =>
    simp only [CommandBody.valid, Bool.and_eq_true] at h
    have e := rt_move (r := r) h.1 h.2
    simp only [List.cons_append, List.nil_append] at e
    cases u with
    | false =>
      alt_at 3
      rw [commandSelect]
      alt_at 12
      simpa [CommandBody.enc, CommandBody.norm, encUid] using e
    | true =>
      alt_at 3
      rw [commandSelect]
      alt_at 7
      simp only [uid, P.bind_apply]
      simp [CommandBody.enc, encUid, tagNC, sp_cons]
      refine mapRes_ok (v := .move (normSet s) m false) ?_ rfl
      rw [uidBody]
      alt_at 4
      exact e
  | id o =>
    simp only [CommandBody.valid, Bool.and_eq_true] at h
    have e := rt_idParamsList (o := o) (r := 13 :: r) h.2
    alt_at 0
    rw [commandAny]
    alt_at 3
    rw [gate_on h.1]
    have e' : CommandBody.norm (.id o) = .id (if o = some [] ∧ Quirks.idEmptyToNil then none else o) := by
      rcases o with _ | _ | ⟨x, l⟩
      · simp [CommandBody.norm]
      · simp only [CommandBody.norm, true_and]
        split <;> rfl
      · simp [CommandBody.norm]
    simp [CommandBody.enc, e', idCommand, tagNC, e]
  | setMetadata m es =>
    simp only [CommandBody.valid, Bool.and_eq_true, List.all_eq_true, Bool.not_eq_true', List.isEmpty_eq_false_iff] at h
    alt_at 1
    rw [commandAuth]
    alt_at 17
    rw [gate_on h.1.1.1]
    exact rt_setmetadata h.1.1.2 h.1.2 h.2
  | getMetadata os m es =>
    simp only [CommandBody.valid, Bool.and_eq_true, List.all_eq_true, Bool.not_eq_true', List.isEmpty_eq_false_iff] at h
    alt_at 1
    rw [commandAuth]
    alt_at 18
    rw [gate_on h.1.1.1.1]
    exact rt_getmetadata h.1.1.1.2 h.1.1.2 h.1.2 h.2
  | namespace_ =>
    have h : Quirks.extNamespace = true := h
    simp only [commandAuth, gate_on h]
    rfl

theorem rt_commandBody {c : CommandBody} {r : Bytes} (h : c.valid = true) :
    commandBody (bytes c.enc ++ 13 :: 10 :: r) = .ok r c.norm := by
  simp only [commandBody, P.bind_apply]
  rw [rt_commandAlt h]
  simp [rt_crlf]

/-- The round trip of commands. -/
theorem rt_command {c : Command} {r : Bytes} (h : c.valid = true) : command (bytes c.enc ++ r) = .ok r c.norm := by
  simp only [Command.valid, Bool.and_eq_true] at h
  have e1 := rt_tagImap (s := c.tag) (r := 32 :: (bytes c.body.enc ++ 13 :: 10 :: r)) h.1 rfl
  simp [command, Command.enc, e1, sp_cons, rt_commandBody h.2, fillTag, Command.norm]

end Imap
