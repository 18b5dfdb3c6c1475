import Verif.GrammarSearch
/-
Parsers and grammars: commands.
-/
set_option maxRecDepth 10000

namespace Imap.Gr

open Imap.Grammar (G Star choice onlyIf optD sepBy1 sepBy0 such token octets named lit is plus)

variable {α β γ : Type}

instance : Begs0 Grammar.dateTime [b!"\""] := ⟨by
  rintro w v ⟨⟨wd, wm, wy, wh, wi, ws, wz, rfl, -⟩, -⟩
  exact ⟨b!"\"", by simp, b!"\"", _, by simp only [List.append_assoc]; rfl, rfl⟩⟩

/-- What status items begin with. -/
def statusHeads : List Bytes := [b!"MESSAGES", b!"RECENT", b!"UIDNEXT", b!"UIDVALIDITY", b!"UNSEEN", b!"DELETED-STORAGE", b!"DELETED", b!"HIGHESTMODSEQ"]

instance [Quirks] : Begs0 Grammar.statusAtt statusHeads := by unfold Grammar.statusAtt; exact Begs0.mono inferInstance (by decide +kernel)
instance [Quirks] : Errs statusAtt statusHeads := by unfold statusAtt; exact Errs.mono inferInstance (by decide +kernel)

instance : Begs0 Grammar.authType (allOf isAtomChar) := begs0_named _ _

/-! ### Parameters of commands -/

variable [Quirks]

theorem fits_qresync : Fits qresync (do
    lit b!"QRESYNC ("
    let u ← Grammar.nzNumber
    Grammar.sp
    let m ← Grammar.modSequenceValue
    let k ← Grammar.opt (do Grammar.sp; Grammar.sequenceSet)
    let s ← Grammar.opt (do
      lit b!" ("
      let a ← Grammar.sequenceSet
      Grammar.sp
      let b ← Grammar.sequenceSet
      lit b!")"
      return (a, b))
    lit b!")"
    return SelectParameter.qresync u m k s) S0 := by
  unfold qresync
  refine Fits.word inferInstance ?_
  refine Fits.bind (S1 := b!" ") (fits_nzNumber (by decide)) (fun u => Fits.word inferInstance ?_) (by decide +kernel)
  refine Fits.bind (S1 := S0) (fits_modSequenceValue (by decide)) (fun m => ?_) (by decide +kernel)
  have key : ∀ k, Fits (do
      let s ← opt (do
        sp
        char 40
        let a ← sequenceSet
        sp
        let b ← sequenceSet
        char 41
        return (a, b))
      char 41
      return SelectParameter.qresync u m k s) (do
      let s ← Grammar.opt (do
        lit b!" ("
        let a ← Grammar.sequenceSet
        Grammar.sp
        let b ← Grammar.sequenceSet
        lit b!")"
        return (a, b))
      lit b!")"
      return SelectParameter.qresync u m k s) S0 := by
    intro k
    refine Fits.opt (S1 := b!")") (Fits.word2 inferInstance inferInstance ?_) (fun a => Fits.word inferInstance Fits.pure)
      (Fits.word inferInstance Fits.pure) (by decide +kernel) (by decide +kernel)
    refine Fits.bind (S1 := S0) fits_sequenceSet (fun a => Fits.word inferInstance ?_) (by decide +kernel)
    refine Fits.bind (S1 := S0) fits_sequenceSet (fun b => Fits.word inferInstance Fits.pure) (by decide +kernel)
  exact Fits.opt (S1 := S0) (Fits.word inferInstance fits_sequenceSet) (fun a => key _) (key _) (by decide +kernel) (by decide +kernel)

theorem fits_selectParams : Fits selectParams Grammar.selectParams T := by
  simp only [selectParams, Grammar.selectParams, Grammar.parens]
  refine Fits.gated fun hb => ?_
  simp only [selectParam, gate_on hb]
  refine Fits.word_split inferInstance ?_
  have h : Fits (alt [value .condStore (tagNC b!"CONDSTORE"), qresync]) (choice [is b!"CONDSTORE" .condStore, do
    lit b!"QRESYNC ("
    let u ← Grammar.nzNumber
    Grammar.sp
    let m ← Grammar.modSequenceValue
    let k ← Grammar.opt (do Grammar.sp; Grammar.sequenceSet)
    let s ← Grammar.opt (do
      lit b!" ("
      let a ← Grammar.sequenceSet
      Grammar.sp
      let b ← Grammar.sequenceSet
      lit b!")"
      return (a, b))
    lit b!")"
    return SelectParameter.qresync u m k s]) S0 :=
    Fits.alt_cons (Fits.is inferInstance) (Fits.alt_one fits_qresync) (by decide +kernel)
  exact Fits.sepBy1 (S1 := S0) (ListOk.mk' (by decide +kernel) (by decide +kernel) (by decide +kernel)) h
    fun l => Fits.word inferInstance Fits.pure

instance : Errs selectParams [b!" ("] := by unfold selectParams; exact Errs.gate (h := Errs.bind _ _) _ _
instance : Begs0 Grammar.selectParams [b!" ("] :=
  Begs0.mono (B := [b!"("].map fun e => b!" " ++ e) (by unfold Grammar.selectParams; infer_instance) (by decide)

theorem fits_fetchModifiers : Fits fetchModifiers (onlyIf Quirks.extCondstoreQresync do
    Grammar.sp
    Grammar.parens (sepBy1 Grammar.sp (choice [.changedSince <$> do lit b!"CHANGEDSINCE "; Grammar.modSequenceValue, is b!"VANISHED" .vanished]))) T := by
  simp only [fetchModifiers, Grammar.parens]
  refine Fits.gated fun hb => ?_
  simp only [fetchModifier, gate_on hb]
  refine Fits.word_split inferInstance ?_
  have h : Fits (alt [FetchModifier.changedSince <$> (do tagNC b!"CHANGEDSINCE "; modSequenceValue), value .vanished (tagNC b!"VANISHED")]) (choice [.changedSince <$> do lit b!"CHANGEDSINCE "; Grammar.modSequenceValue, is b!"VANISHED" .vanished]) S0 :=
    Fits.alt_cons (Fits.map (Fits.word inferInstance (fits_modSequenceValue (by decide)))) (Fits.alt_one (Fits.is inferInstance)) (by decide +kernel)
  exact Fits.sepBy1 (S1 := S0) (ListOk.mk' (by decide +kernel) (by decide +kernel) (by decide +kernel)) h
    fun l => Fits.word inferInstance Fits.pure

theorem fits_storeModifiers : Fits storeModifiers (onlyIf Quirks.extCondstoreQresync do
    Grammar.sp
    Grammar.parens (sepBy1 Grammar.sp (do lit b!"UNCHANGEDSINCE "; Grammar.modSequenceValzer))) b!" " := by
  simp only [storeModifiers, Grammar.parens]
  refine Fits.gated fun hb => ?_
  simp only [storeModifier, gate_on hb]
  refine Fits.word_split inferInstance ?_
  have h : Fits (do tagNC b!"UNCHANGEDSINCE "; modSequenceValzer) (do lit b!"UNCHANGEDSINCE "; Grammar.modSequenceValzer) S0 :=
    Fits.word inferInstance (fits_number64 (by decide))
  exact Fits.sepBy1 (S1 := S0) (ListOk.mk' (by decide +kernel) (by decide +kernel) (by decide +kernel)) h
    fun l => Fits.word inferInstance Fits.pure

instance : Errs fetchModifiers [b!" ("] := by unfold fetchModifiers; exact Errs.gate (h := Errs.bind _ _) _ _
instance : Errs storeModifiers [b!" ("] := by unfold storeModifiers; exact Errs.gate (h := Errs.bind _ _) _ _

/-! ### Commands -/

theorem fits_append : Fits append Grammar.append T := by
  unfold append Grammar.append
  refine Fits.word inferInstance ?_
  refine Fits.bind (S1 := b!" ") (fits_mailbox (by decide)) (fun m => ?_) (by decide +kernel)
  have h1 : ∀ fs d, Fits (do
      sp
      let msg ← alt [LiteralOrLiteral8.literal <$> literal, .literal8 <$> literal8]
      return CommandBody.append m fs d msg) (do
      Grammar.sp
      let msg ← choice [.literal <$> Grammar.literal, .literal8 <$> Grammar.literal8]
      return CommandBody.append m fs d msg) T := by
    intro fs d
    refine Fits.word inferInstance ?_
    refine Fits.bind (S1 := T) ?_ (fun x => Fits.pure) (by decide +kernel)
    exact Fits.alt_cons (Fits.map fits_literal) (Fits.alt_one (Fits.map fits_literal8)) (by decide +kernel)
  have h2 : ∀ fs, Fits (do
      let d ← opt (do sp; dateTime)
      sp
      let msg ← alt [LiteralOrLiteral8.literal <$> literal, .literal8 <$> literal8]
      return CommandBody.append m fs d msg) (do
      let d ← Grammar.opt (do Grammar.sp; Grammar.dateTime)
      Grammar.sp
      let msg ← choice [.literal <$> Grammar.literal, .literal8 <$> Grammar.literal8]
      return CommandBody.append m fs d msg) T := by
    intro fs
    exact Fits.opt (S1 := b!" ") (Fits.word inferInstance fits_dateTime.fits) (fun a => h1 _ _) (h1 _ _) (by decide +kernel) (by decide +kernel)
  exact Fits.optD (S1 := b!" ") (Fits.word inferInstance fits_flagList) (fun a => h2 _) (h2 _) (by decide +kernel) (by decide +kernel)

theorem fits_select : Fits select Grammar.select T := by
  unfold select Grammar.select
  refine Fits.word inferInstance (Fits.bind (S1 := S0) (fits_mailbox (by decide)) (fun m => ?_) (by decide +kernel))
  exact Fits.optD (S1 := T) fits_selectParams (fun a => Fits.pure) Fits.pure (by decide +kernel) (by decide +kernel)

theorem fits_examine : Fits examine Grammar.examine T := by
  unfold examine Grammar.examine
  refine Fits.word inferInstance (Fits.bind (S1 := S0) (fits_mailbox (by decide)) (fun m => ?_) (by decide +kernel))
  exact Fits.optD (S1 := T) fits_selectParams (fun a => Fits.pure) Fits.pure (by decide +kernel) (by decide +kernel)

theorem fits_list : Fits list Grammar.list T := by
  unfold list Grammar.list
  refine Fits.word inferInstance (Fits.bind (S1 := b!" ") (fits_mailbox (by decide)) (fun m => Fits.word inferInstance ?_) (by decide +kernel))
  exact Fits.bind (S1 := T) (fits_listMailbox (by decide)) (fun m => Fits.pure) (by decide +kernel)

theorem fits_lsub : Fits lsub Grammar.lsub T := by
  unfold lsub Grammar.lsub
  refine Fits.word inferInstance (Fits.bind (S1 := b!" ") (fits_mailbox (by decide)) (fun m => Fits.word inferInstance ?_) (by decide +kernel))
  exact Fits.bind (S1 := T) (fits_listMailbox (by decide)) (fun m => Fits.pure) (by decide +kernel)

theorem fits_rename : Fits rename Grammar.rename T := by
  unfold rename Grammar.rename
  refine Fits.word inferInstance (Fits.bind (S1 := b!" ") (fits_mailbox (by decide)) (fun m => Fits.word inferInstance ?_) (by decide +kernel))
  exact Fits.bind (S1 := T) (fits_mailbox (by decide)) (fun m => Fits.pure) (by decide +kernel)

theorem fits_status : Fits status Grammar.status T := by
  simp only [status, Grammar.status, Grammar.parens, bind_assoc, pure_bind]
  refine Fits.word inferInstance (Fits.bind (S1 := b!" ") (fits_mailbox (by decide)) (fun m => Fits.word_split inferInstance ?_) (by decide +kernel))
  exact Fits.sepBy0 (S1 := S0) (ListOk.mk' (by decide +kernel) (by decide +kernel) (by decide +kernel)) fits_statusAtt
    (fun l => Fits.word inferInstance Fits.pure) (by decide +kernel)

theorem fits_enable : Fits enable Grammar.enable T := by
  simp only [enable, Grammar.enable, many1, plus, map_eq_pure_bind, bind_assoc, pure_bind]
  have h : Fits (do sp; capabilityEnable) (do Grammar.sp; named Spec.enableNames CapabilityEnable.other) S0 :=
    Fits.word inferInstance (fits_named C28_enable (by decide))
  have h' := Fits.bind (S1 := S0) (S := T) h (fun a => Fits.many0 (S := T) (S1 := S0) h (fun l => Fits.pure (a := CommandBody.enable (a :: l))) (by decide +kernel) (by decide +kernel)
    (by decide +kernel)) (by decide +kernel)
  simp only [bind_assoc] at h'
  exact Fits.word inferInstance h'

omit [Quirks] in
theorem fits_compress : Fits compress (is b!"COMPRESS DEFLATE" .compress) T := by
  rw [is_eq]
  exact Fits.word2 inferInstance inferInstance Fits.pure

instance : Errs resourceName (allOf isAtomChar) := Errs.map _ _
instance : Errs setquotaResource (allOf isAtomChar) := Errs.bind _ _
instance : Errs idParam stringHeads := Errs.bind _ _
instance : Errs entry astringHeads := inferInstanceAs (Errs astring _)

theorem fits_setquota : Fits setquota Grammar.setquota T := by
  simp only [setquota, Grammar.setquota, Grammar.parens, bind_assoc, pure_bind]
  refine Fits.word inferInstance (Fits.bind (S1 := b!" ") (fits_astring (by decide)) (fun m => Fits.word_split inferInstance ?_) (by decide +kernel))
  have h : Fits setquotaResource (do let n ← named Spec.resourceNames .other; Grammar.sp; let l ← Grammar.number64; return ⟨n, l⟩) S0 :=
    Fits.bind (S1 := b!" ") (fits_named C28_resource (by decide)) (fun n => Fits.word inferInstance
      (Fits.bind (S1 := S0) (fits_number64 (by decide)) (fun l => Fits.pure) (by decide +kernel))) (by decide +kernel)
  exact Fits.sepBy0 (S1 := S0) (ListOk.mk' (by decide +kernel) (by decide +kernel) (by decide +kernel)) h
    (fun l => Fits.word inferInstance Fits.pure) (by decide +kernel)

theorem fits_imapValue : Fits imapValue Grammar.imapValue S0 := by
  exact Fits.alt_cons (Fits.map fits_nstring) (Fits.alt_one (Fits.map fits_literal8)) (by decide +kernel)

instance : Begs0 Grammar.imapValue (nstringHeads ++ ([b!"~{"] ++ [])) := by unfold Grammar.imapValue; infer_instance

theorem fits_setmetadata : Fits setmetadata Grammar.setmetadata T := by
  simp only [setmetadata, entryValues, Grammar.setmetadata, Grammar.parens, bind_assoc, pure_bind]
  refine Fits.word2 inferInstance inferInstance (Fits.bind (S1 := b!" ") (fits_mailbox (by decide)) (fun m => Fits.word inferInstance (Fits.word inferInstance ?_)) (by decide +kernel))
  have h : Fits entryValue (do let e ← Grammar.astring; Grammar.sp; let v ← Grammar.imapValue; return ⟨e, v⟩) S0 :=
    Fits.bind (S1 := b!" ") (fits_astring (by decide)) (fun n => Fits.word inferInstance
      (Fits.bind (S1 := S0) fits_imapValue (fun l => Fits.pure) (by decide +kernel))) (by decide +kernel)
  exact Fits.sepBy1 (S1 := S0) (ListOk.mk' (by decide +kernel) (by decide +kernel) (by decide +kernel)) h
    (fun l => Fits.word inferInstance Fits.pure)

omit [Quirks] in
theorem fits_getmetadataOptions : Fits getmetadataOptions Grammar.getmetadataOptions b!" " := by
  simp only [getmetadataOptions, Grammar.getmetadataOptions, Grammar.parens]
  refine Fits.word inferInstance ?_
  refine Fits.sepBy1 (S1 := S0) (ListOk.mk' (by decide +kernel) (by decide +kernel) (by decide +kernel)) ?_
    (fun l => Fits.word inferInstance Fits.pure)
  refine Fits.alt_cons (Fits.map (Fits.word inferInstance (fits_number (by decide)))) (Fits.alt_one (Fits.word inferInstance ?_)) (by decide +kernel)
  keywords

instance : Errs getmetadataOptions [b!"("] := Errs.bind _ _
instance : Begs0 Grammar.getmetadataOptions [b!"("] := Begs0.parens _

theorem fits_getmetadata : Fits getmetadata Grammar.getmetadata T := by
  unfold getmetadata Grammar.getmetadata
  refine Fits.word inferInstance ?_
  have h : ∀ os, Fits (do
      sp
      let m ← mailbox
      sp
      let es ← entries
      return CommandBody.getMetadata os m es) (do
      Grammar.sp
      let m ← Grammar.mailbox
      Grammar.sp
      let es ← choice [(fun e => [e]) <$> Grammar.astring, Grammar.parens (sepBy1 Grammar.sp Grammar.astring)]
      return CommandBody.getMetadata os m es) T := by
    intro os
    refine Fits.word inferInstance ?_
    refine Fits.bind (S1 := b!" ") (fits_mailbox (by decide)) (fun m => Fits.word inferInstance ?_) (by decide +kernel)
    refine Fits.bind (S1 := T) ?_ (fun m => Fits.pure) (by decide +kernel)
    refine Fits.alt_cons (Fits.map (fits_astring (by decide))) (Fits.alt_one ?_) (by decide +kernel)
    unfold Grammar.parens
    refine Fits.word inferInstance ?_
    exact Fits.sepBy1 (S1 := S0) (ListOk.mk' (by decide +kernel) (by decide +kernel) (by decide +kernel)) (fits_astring (by decide))
      (fun l => Fits.word inferInstance Fits.pure)
  exact Fits.optD (S1 := b!" ") (Fits.word inferInstance fits_getmetadataOptions) (fun a => h _) (h _) (by decide +kernel) (by decide +kernel)

omit [Quirks] in
theorem fits_idParams [q : Quirks] : Fits idParamsList Grammar.idParams T := by
  unfold idParamsList Grammar.idParams
  have hp : Fits idParam (do let k ← Grammar.string; Grammar.sp; let v ← Grammar.nstring; return (k, v)) S0 :=
    Fits.bind (S1 := b!" ") fits_string (fun n => Fits.word inferInstance
      (Fits.bind (S1 := S0) fits_nstring (fun l => Fits.pure) (by decide +kernel))) (by decide +kernel)
  refine Fits.alt_cons (Fits.map (Fits.word inferInstance ?_)) (Fits.alt_one (Fits.is ⟨rfl⟩)) (by decide +kernel)
  cases hq : q.trailingSpaceId with
  | false =>
    simp only [Bool.false_eq_true, if_false]
    exact Fits.sepBy0 (S1 := S0) (ListOk.mk' (by decide +kernel) (by decide +kernel) (by decide +kernel)) hp
      (fun l => Fits.word inferInstance Fits.pure) (by decide +kernel)
  | true =>
    simp only [if_true]
    refine Fits.sepBy0 (S1 := S0) (ListOk.mk' (by decide +kernel) (by decide +kernel) (by decide +kernel)) hp
      (fun l => ?_) (by decide +kernel)
    exact Fits.optD (S1 := S0) (Fits.lit inferInstance) (fun _ => Fits.word inferInstance Fits.pure) (Fits.word inferInstance Fits.pure)
      (by decide +kernel) (by decide +kernel)

theorem fits_login : Fits login Grammar.login T := by
  unfold login Grammar.login
  refine Fits.word2 inferInstance inferInstance (Fits.bind (S1 := b!" ") (fits_astring (by decide)) (fun m => Fits.word inferInstance ?_) (by decide +kernel))
  exact Fits.bind (S1 := T) (fits_astring (by decide)) (fun m => Fits.pure) (by decide +kernel)

omit [Quirks] in
theorem fits_authenticate : Fits authenticate Grammar.authenticate T := by
  unfold authenticate Grammar.authenticate
  refine Fits.word inferInstance (Fits.bind (S1 := S0) (fits_authType (by decide)) (fun m => ?_) (by decide +kernel))
  refine Fits.opt (S1 := T) (Fits.word inferInstance ?_) (fun m => Fits.pure) Fits.pure (by decide +kernel) (by decide +kernel)
  have h1 : Fits base64 Grammar.base64 T := fits_base64 (by decide)
  have h2 : Fits (value [] (tag b!"=")) (is b!"=" ([] : Bytes)) T := Fits.is inferInstance
  refine ⟨?_, ?_⟩
  · intro x r v e
    obtain ⟨p, hp, e⟩ := exists_of_alt e
    simp only [List.mem_cons, List.not_mem_nil, or_false] at hp
    rcases hp with rfl | rfl
    · obtain ⟨w, rfl, h⟩ := h1.sound e
      exact ⟨w, rfl, _, List.mem_cons_self .., h⟩
    · obtain ⟨w, rfl, h⟩ := h2.sound e
      exact ⟨w, rfl, _, List.mem_cons_of_mem _ (List.mem_cons_self ..), h⟩
  · intro w v r h hr
    rw [alt_cons]
    rcases choice_cons.1 h with h | h
    · exact orElse_ok (h1.complete h hr)
    · have h' := (choice_cons.1 h).resolve_right choice_nil.1
      have hw : lowerAll w = [61] := h'.1
      have he : base64 (w ++ r) = .error := by
        have key : ∀ b : UInt8, lower b = 61 → b = 61 := forall_byte (by decide)
        obtain ⟨c, w', rfl⟩ : ∃ c w', w = c :: w' := by cases w <;> simp [lowerAll] at hw ⊢
        simp only [lowerAll, List.map_cons, List.cons.injEq, List.map_eq_nil_iff] at hw
        obtain ⟨hc, rfl⟩ := hw
        obtain rfl := key c hc
        obtain ⟨b, r', rfl, hb⟩ := hr
        have hb : b = 13 ∨ b = 10 := by simpa [T] using hb
        have hl : (r'.length + 1 + 1) - (r'.length + 1) = 1 := by omega
        have hp : (do let _ ← takeWhile isBase64Char; opt (alt [tag b!"==", tag b!"="]) : P (Option Unit)) (61 :: b :: r') =
            .ok (b :: r') (some ()) := by
          rcases hb with rfl | rfl <;> rfl
        simp only [base64, mapRes, recognize, List.cons_append, List.nil_append, hp, Res.andThen_ok, List.length_cons, hl]
        rfl
      rw [orElse_error he, alt_cons]
      exact orElse_ok (h2.complete h' hr)

/-! ### Commands that may follow `UID` -/

/-- A command without the prefix `UID`: `c` makes the command from its arguments and from whether the prefix is there. -/
def plain (c : α → Bool → CommandBody) (g : G α) (u : Bool) : G CommandBody := (c · u) <$> g

/-- The arguments of COPY. -/
def copyArgs : G (SequenceSet × Mailbox) := do
  lit b!"COPY "
  let s ← Grammar.sequenceSet
  Grammar.sp
  let m ← Grammar.mailbox
  return (s, m)

/-- The arguments of MOVE. -/
def moveArgs : G (SequenceSet × Mailbox) := do
  lit b!"MOVE "
  let s ← Grammar.sequenceSet
  Grammar.sp
  let m ← Grammar.mailbox
  return (s, m)

/-- The arguments of FETCH. -/
def fetchArgs : G (SequenceSet × MacroOrNames × List FetchModifier) := do
  lit b!"FETCH "
  let s ← Grammar.sequenceSet
  Grammar.sp
  let i ← Grammar.fetchItems
  let ms ← optD [] (onlyIf Quirks.extCondstoreQresync do
    Grammar.sp
    Grammar.parens (sepBy1 Grammar.sp (choice [.changedSince <$> do lit b!"CHANGEDSINCE "; Grammar.modSequenceValue, is b!"VANISHED" .vanished])))
  return (s, i, ms)

/-- The arguments of STORE. -/
def storeArgs : G (SequenceSet × StoreType × StoreResponse × List Flag × List StoreModifier) := do
  lit b!"STORE "
  let s ← Grammar.sequenceSet
  let ms ← optD [] (onlyIf Quirks.extCondstoreQresync do Grammar.sp; Grammar.parens (sepBy1 Grammar.sp (do lit b!"UNCHANGEDSINCE "; Grammar.modSequenceValzer)))
  Grammar.sp
  let k ← optD StoreType.replace (choice [is b!"+" .add, is b!"-" .remove])
  lit b!"FLAGS"
  let r ← optD StoreResponse.answer (is b!".SILENT" .silent)
  Grammar.sp
  let fs ← choice [Grammar.flagList, sepBy1 Grammar.sp Grammar.flag]
  return (s, k, r, fs, ms)

/-- The arguments of SEARCH. -/
def searchArgs : G (Option Charset × List SearchKey) := do
  lit b!"SEARCH"
  let c ← Grammar.opt (do lit b!" CHARSET "; Grammar.charset)
  Grammar.sp
  let l ← Grammar.searchKeys
  return (c, l)

def copyOf (x : SequenceSet × Mailbox) (u : Bool) : CommandBody := .copy x.1 x.2 u
def moveOf (x : SequenceSet × Mailbox) (u : Bool) : CommandBody := .move x.1 x.2 u
def fetchOf (x : SequenceSet × MacroOrNames × List FetchModifier) (u : Bool) : CommandBody := .fetch x.1 x.2.1 u x.2.2
def storeOf (x : SequenceSet × StoreType × StoreResponse × List Flag × List StoreModifier) (u : Bool) : CommandBody :=
  .store x.1 x.2.1 x.2.2.1 x.2.2.2.1 u x.2.2.2.2
def searchOf (x : Option Charset × List SearchKey) (u : Bool) : CommandBody := .search x.1 x.2 u

omit [Quirks] in
theorem uidPrefix_iff (c : α → Bool → CommandBody) (g : G α) {w : Bytes} {v : CommandBody} :
    (Grammar.uidPrefix >>= plain c g) w v ↔ plain c g false w v ∨ (lit b!"UID " >>= fun _ => plain c g true) w v := by
  constructor
  · rintro ⟨w1, w2, u, rfl, ⟨rfl, rfl⟩ | ⟨h, rfl⟩, h2⟩
    · exact .inl h2
    · exact .inr ⟨w1, w2, (), rfl, h, h2⟩
  · rintro (h | ⟨w1, w2, _, rfl, h1, h2⟩)
    · exact ⟨[], w, false, rfl, .inl ⟨rfl, rfl⟩, h⟩
    · exact ⟨w1, w2, true, rfl, .inr ⟨h1, rfl⟩, h2⟩

theorem copy_eq : Grammar.copy = Grammar.uidPrefix >>= plain copyOf copyArgs := by
  unfold Grammar.copy
  refine congrArg (Bind.bind Grammar.uidPrefix) (funext fun u => ?_)
  simp only [plain, copyOf, copyArgs, map_eq_pure_bind, bind_assoc, pure_bind]

theorem move_eq : Grammar.move = Grammar.uidPrefix >>= plain moveOf moveArgs := by
  unfold Grammar.move
  refine congrArg (Bind.bind Grammar.uidPrefix) (funext fun u => ?_)
  simp only [plain, moveOf, moveArgs, map_eq_pure_bind, bind_assoc, pure_bind]

theorem fetch_eq : Grammar.fetch = Grammar.uidPrefix >>= plain fetchOf fetchArgs := by
  unfold Grammar.fetch
  refine congrArg (Bind.bind Grammar.uidPrefix) (funext fun u => ?_)
  simp only [plain, fetchOf, fetchArgs, map_eq_pure_bind, bind_assoc, pure_bind]

theorem store_eq : Grammar.store = Grammar.uidPrefix >>= plain storeOf storeArgs := by
  unfold Grammar.store
  refine congrArg (Bind.bind Grammar.uidPrefix) (funext fun u => ?_)
  simp only [plain, storeOf, storeArgs, map_eq_pure_bind, bind_assoc, pure_bind]

theorem search_eq : Grammar.search = Grammar.uidPrefix >>= plain searchOf searchArgs := by
  unfold Grammar.search
  refine congrArg (Bind.bind Grammar.uidPrefix) (funext fun u => ?_)
  simp only [plain, searchOf, searchArgs, map_eq_pure_bind, bind_assoc, pure_bind]

theorem fits_copy : Fits copy (plain copyOf copyArgs false) T := by
  simp only [copy, plain, copyOf, copyArgs, map_eq_pure_bind, bind_assoc, pure_bind]
  refine Fits.word2 inferInstance inferInstance (Fits.bind (S1 := S0) fits_sequenceSet (fun m => Fits.word inferInstance ?_) (by decide +kernel))
  exact Fits.bind (S1 := T) (fits_mailbox (by decide)) (fun m => Fits.pure) (by decide +kernel)

theorem fits_move : Fits move (plain moveOf moveArgs false) T := by
  simp only [move, plain, moveOf, moveArgs, map_eq_pure_bind, bind_assoc, pure_bind]
  refine Fits.word2 inferInstance inferInstance (Fits.bind (S1 := S0) fits_sequenceSet (fun m => Fits.word inferInstance ?_) (by decide +kernel))
  exact Fits.bind (S1 := T) (fits_mailbox (by decide)) (fun m => Fits.pure) (by decide +kernel)

theorem fits_fetch : Fits fetch (plain fetchOf fetchArgs false) T := by
  have h := fits_fetchModifiers
  simp only [fetch, plain, fetchOf, fetchArgs, map_eq_pure_bind, bind_assoc, pure_bind] at h ⊢
  refine Fits.word2 inferInstance inferInstance (Fits.bind (S1 := S0) fits_sequenceSet (fun m => Fits.word inferInstance ?_) (by decide +kernel))
  refine Fits.bind (S1 := S0) fits_fetchItems (fun m => ?_) (by decide +kernel)
  exact Fits.optD (S1 := T) h (fun a => Fits.pure) Fits.pure (by decide +kernel) (by decide +kernel)

omit [Quirks] in
theorem fits_storeAttFlags : Fits storeAttFlags (do
    let k ← optD StoreType.replace (choice [is b!"+" .add, is b!"-" .remove])
    lit b!"FLAGS"
    let r ← optD StoreResponse.answer (is b!".SILENT" .silent)
    Grammar.sp
    let fs ← choice [Grammar.flagList, sepBy1 Grammar.sp Grammar.flag]
    return (k, r, fs)) T := by
  have h1 : ∀ (k : StoreType) (r : StoreResponse), Fits (do
      sp
      let l ← alt [flagList, sepList1 sp flag]
      return (k, r, l)) (do
      Grammar.sp
      let fs ← choice [Grammar.flagList, sepBy1 Grammar.sp Grammar.flag]
      return (k, r, fs)) T := by
    intro k r
    refine Fits.word inferInstance (Fits.bind (S1 := T) ?_ (fun l => Fits.pure) (by decide +kernel))
    refine Fits.alt_cons fits_flagList (Fits.alt_one ?_) (by decide +kernel)
    exact Fits.list (ListOk.mk' (S1 := S0) (by decide +kernel) (by decide +kernel) (by decide +kernel)) (fits_flag (by decide))
  have h2 : ∀ (k : StoreType), Fits (do
      tagNC b!"FLAGS"
      let s ← opt (tagNC b!".SILENT")
      sp
      let l ← alt [flagList, sepList1 sp flag]
      return (k, if s.isSome then StoreResponse.silent else .answer, l)) (do
      lit b!"FLAGS"
      let r ← optD StoreResponse.answer (is b!".SILENT" .silent)
      Grammar.sp
      let fs ← choice [Grammar.flagList, sepBy1 Grammar.sp Grammar.flag]
      return (k, r, fs)) T := by
    intro k
    exact Fits.word inferInstance (Fits.optD_is inferInstance (h1 _ _) (h1 _ _) (by decide +kernel))
  unfold storeAttFlags
  refine Fits.optD (S1 := b!"Ff") ?_ (fun a => h2 _) (h2 _) (by decide +kernel) (by decide +kernel)
  exact Fits.alt_cons (Fits.is inferInstance) (Fits.alt_one (Fits.is inferInstance)) (by decide +kernel)

theorem fits_store : Fits store (plain storeOf storeArgs false) T := by
  simp only [store, plain, storeOf, storeArgs, map_eq_pure_bind, bind_assoc, pure_bind]
  refine Fits.word2 inferInstance inferInstance (Fits.bind (S1 := S0) fits_sequenceSet (fun s => ?_) (by decide +kernel))
  have h1 : ∀ ms, Fits (do sp; let x ← storeAttFlags; return CommandBody.store s x.1 x.2.1 x.2.2 false ms) (do
      Grammar.sp
      let k ← optD StoreType.replace (choice [is b!"+" .add, is b!"-" .remove])
      lit b!"FLAGS"
      let r ← optD StoreResponse.answer (is b!".SILENT" .silent)
      Grammar.sp
      let fs ← choice [Grammar.flagList, sepBy1 Grammar.sp Grammar.flag]
      return CommandBody.store s k r fs false ms) T := by
    intro ms
    have h := Fits.bind (S := T) (S1 := T) fits_storeAttFlags (fun x => Fits.pure (a := CommandBody.store s x.1 x.2.1 x.2.2 false ms)) (by decide +kernel)
    simp only [bind_assoc, pure_bind] at h
    exact Fits.word inferInstance h
  exact Fits.optD (S1 := b!" ") fits_storeModifiers (fun a => h1 _) (h1 _) (by decide +kernel) (by decide +kernel)

theorem fits_search : Fits search (plain searchOf searchArgs false) T := by
  simp only [search, plain, searchOf, searchArgs, map_eq_pure_bind, bind_assoc, pure_bind]
  refine Fits.word inferInstance ?_
  have h1 : ∀ c, Fits (do sp; let l ← sepList1 sp (searchKey 9); return CommandBody.search c l false)
      (do Grammar.sp; let l ← Grammar.searchKeys; return CommandBody.search c l false) T := by
    intro c
    exact Fits.word inferInstance (Fits.bind (S1 := T) fits_searchKeys (fun l => Fits.pure) (by decide +kernel))
  exact Fits.opt (S1 := b!" ") (Fits.word3 inferInstance inferInstance inferInstance (fits_charset (by decide))) (fun a => h1 _) (h1 _)
    (by decide +kernel) (by decide +kernel)

omit [Quirks] in
theorem fits_sortCriterion : Fits sortCriterion (do
    let r ← optD false (is b!"REVERSE " true)
    let k ← choice [is b!"ARRIVAL" .arrival, is b!"CC" .cc, is b!"DATE" .date, is b!"FROM" .from_, is b!"SIZE" .size,
      is b!"SUBJECT" .subject, is b!"TO" .to, is b!"DISPLAYFROM" .displayFrom, is b!"DISPLAYTO" .displayTo]
    return ⟨r, k⟩) S0 := by
  have h : ∀ r, Fits (do let k ← sortKey; return SortCriterion.mk r k) (do
      let k ← choice [is b!"ARRIVAL" .arrival, is b!"CC" .cc, is b!"DATE" .date, is b!"FROM" .from_, is b!"SIZE" .size,
        is b!"SUBJECT" .subject, is b!"TO" .to, is b!"DISPLAYFROM" .displayFrom, is b!"DISPLAYTO" .displayTo]
      return ⟨r, k⟩) S0 := by
    intro r
    refine Fits.bind (S1 := S0) ?_ (fun k => Fits.pure) (by decide +kernel)
    unfold sortKey
    keywords
  unfold sortCriterion
  exact Fits.optD_is inferInstance (h _) (h _) (by decide +kernel)

theorem fits_searchCriteria : Fits searchCriteria (do
    let c ← Grammar.charset
    Grammar.sp
    let l ← Grammar.searchKeys
    return (c, l)) T :=
  Fits.bind (S1 := b!" ") (fits_charset (by decide)) (fun c => Fits.word inferInstance
    (Fits.bind (S1 := T) fits_searchKeys (fun l => Fits.pure) (by decide +kernel))) (by decide +kernel)

theorem fits_sort : Fits sort Grammar.sort T := by
  simp only [sort, sortCriteria, Grammar.sort, Grammar.uidPrefix, Grammar.parens, bind_assoc, pure_bind]
  have h1 : ∀ s u, Fits (do let x ← searchCriteria; return CommandBody.sort s x.1 x.2 u) (do
      let c ← Grammar.charset
      Grammar.sp
      let l ← Grammar.searchKeys
      return CommandBody.sort s c l u) T := by
    intro s u
    have h := Fits.bind (S := T) (S1 := T) fits_searchCriteria (fun x => Fits.pure (a := CommandBody.sort s x.1 x.2 u)) (by decide +kernel)
    simpa only [bind_assoc, pure_bind] using h
  have h2 : ∀ u, Fits (do
      tagNC b!"SORT "
      tag b!"("
      let s ← sepList1 sp sortCriterion
      tag b!")"
      sp
      let x ← searchCriteria
      return CommandBody.sort s x.1 x.2 u) (do
      lit b!"SORT "
      lit b!"("
      let s ← sepBy1 Grammar.sp (do
        let r ← optD false (is b!"REVERSE " true)
        let k ← choice [is b!"ARRIVAL" .arrival, is b!"CC" .cc, is b!"DATE" .date, is b!"FROM" .from_, is b!"SIZE" .size,
          is b!"SUBJECT" .subject, is b!"TO" .to, is b!"DISPLAYFROM" .displayFrom, is b!"DISPLAYTO" .displayTo]
        return ⟨r, k⟩)
      lit b!")"
      Grammar.sp
      let c ← Grammar.charset
      Grammar.sp
      let l ← Grammar.searchKeys
      return CommandBody.sort s c l u) T := by
    intro u
    refine Fits.word inferInstance (Fits.word inferInstance ?_)
    refine Fits.sepBy1 (S1 := S0) (ListOk.mk' (by decide +kernel) (by decide +kernel) (by decide +kernel)) fits_sortCriterion fun s => ?_
    exact Fits.word inferInstance (Fits.word inferInstance (h1 s u))
  exact Fits.optD_is inferInstance (h2 _) (h2 _) (by decide +kernel)

theorem fits_thread : Fits thread Grammar.thread T := by
  simp only [thread, Grammar.thread, Grammar.uidPrefix]
  have h1 : ∀ s u, Fits (do let x ← searchCriteria; return CommandBody.thread s x.1 x.2 u) (do
      let c ← Grammar.charset
      Grammar.sp
      let l ← Grammar.searchKeys
      return CommandBody.thread s c l u) T := by
    intro s u
    have h := Fits.bind (S := T) (S1 := T) fits_searchCriteria (fun x => Fits.pure (a := CommandBody.thread s x.1 x.2 u)) (by decide +kernel)
    simpa only [bind_assoc, pure_bind] using h
  have h2 : ∀ u, Fits (do
      tagNC b!"THREAD "
      let a ← threadAlg
      sp
      let x ← searchCriteria
      return CommandBody.thread a x.1 x.2 u) (do
      lit b!"THREAD "
      let a ← named Spec.threadNames .other
      Grammar.sp
      let c ← Grammar.charset
      Grammar.sp
      let l ← Grammar.searchKeys
      return CommandBody.thread a c l u) T := by
    intro u
    refine Fits.word inferInstance ?_
    exact Fits.bind (S1 := b!" ") (fits_named C28_thread (by decide)) (fun a => Fits.word inferInstance (h1 a u)) (by decide +kernel)
  exact Fits.optD_is inferInstance (h2 _) (h2 _) (by decide +kernel)

instance : Errs copy [b!"COPY"] := Errs.bind _ _
instance : Errs move [b!"MOVE"] := Errs.bind _ _
instance : Errs fetch [b!"FETCH"] := Errs.bind _ _
instance : Errs store [b!"STORE"] := Errs.bind _ _
instance : Errs search [b!"SEARCH"] := Errs.bind _ _
instance (u : Bool) : Begs0 (plain copyOf copyArgs u) [b!"COPY "] := by unfold plain copyArgs; infer_instance
instance (u : Bool) : Begs0 (plain moveOf moveArgs u) [b!"MOVE "] := by unfold plain moveArgs; infer_instance
instance (u : Bool) : Begs0 (plain fetchOf fetchArgs u) [b!"FETCH "] := by unfold plain fetchArgs; infer_instance
instance (u : Bool) : Begs0 (plain storeOf storeArgs u) [b!"STORE "] := by unfold plain storeArgs; infer_instance
instance (u : Bool) : Begs0 (plain searchOf searchArgs u) [b!"SEARCH"] := by unfold plain searchArgs; infer_instance

/-- The commands that may follow `UID`. -/
def gUid (u : Bool) : G CommandBody :=
  choice [plain copyOf copyArgs u, plain fetchOf fetchArgs u, plain searchOf searchArgs u, plain storeOf storeArgs u, plain moveOf moveArgs u]

theorem fits_uidBody : Fits uidBody (gUid false) T := by
  refine Fits.alt_cons fits_copy ?_ (by decide +kernel)
  refine Fits.alt_cons fits_fetch ?_ (by decide +kernel)
  refine Fits.alt_cons fits_search ?_ (by decide +kernel)
  refine Fits.alt_cons fits_store ?_ (by decide +kernel)
  exact Fits.alt_one fits_move

omit [Quirks] in
theorem setUid_iff {c : α → Bool → CommandBody} (h : ∀ x, (c x false).setUid = some (c x true)) (g : G α) {w : Bytes} {v : CommandBody} :
    (∃ a, plain c g false w a ∧ a.setUid = some v) ↔ plain c g true w v := by
  constructor
  · rintro ⟨a, ⟨x, hx, rfl⟩, e⟩
    rw [h] at e
    exact ⟨x, hx, (Option.some.inj e).symm⟩
  · rintro ⟨x, hx, rfl⟩
    exact ⟨_, ⟨x, hx, rfl⟩, h x⟩

theorem fits_uid : Fits uid (do lit b!"UID "; gUid true) T := by
  unfold uid
  refine Fits.word2 inferInstance inferInstance (fits_uidBody.mapRes.iff fun w v => ?_)
  simp only [gUid, choice_cons, choice_nil, or_false, or_and_right, exists_or]
  rw [setUid_iff (c := copyOf) (fun _ => rfl), setUid_iff (c := fetchOf) (fun _ => rfl), setUid_iff (c := searchOf) (fun _ => rfl),
    setUid_iff (c := storeOf) (fun _ => rfl), setUid_iff (c := moveOf) (fun _ => rfl)]

/-! ### All commands -/

instance : Errs append [b!"APPEND "] := Errs.bind _ _
instance : Begs0 Grammar.append [b!"APPEND "] := Begs0.bind _ _
instance : Errs examine [b!"EXAMINE "] := Errs.bind _ _
instance : Begs0 Grammar.examine [b!"EXAMINE "] := Begs0.bind _ _
instance : Errs list [b!"LIST "] := Errs.bind _ _
instance : Begs0 Grammar.list [b!"LIST "] := Begs0.bind _ _
instance : Errs lsub [b!"LSUB "] := Errs.bind _ _
instance : Begs0 Grammar.lsub [b!"LSUB "] := Begs0.bind _ _
instance : Errs rename [b!"RENAME "] := Errs.bind _ _
instance : Begs0 Grammar.rename [b!"RENAME "] := Begs0.bind _ _
instance : Errs select [b!"SELECT "] := Errs.bind _ _
instance : Begs0 Grammar.select [b!"SELECT "] := Begs0.bind _ _
instance : Errs status [b!"STATUS "] := Errs.bind _ _
instance : Begs0 Grammar.status [b!"STATUS "] := Begs0.bind _ _
instance : Errs setquota [b!"SETQUOTA "] := Errs.bind _ _
instance : Begs0 Grammar.setquota [b!"SETQUOTA "] := Begs0.bind _ _
instance : Errs login [b!"LOGIN"] := Errs.bind _ _
instance : Begs0 Grammar.login [b!"LOGIN "] := Begs0.bind _ _
instance : Errs setmetadata [b!"SETMETADATA"] := Errs.bind _ _
instance : Begs0 Grammar.setmetadata [b!"SETMETADATA "] := Begs0.bind _ _
instance : Errs getmetadata [b!"GETMETADATA"] := Errs.bind _ _
instance : Begs0 Grammar.getmetadata [b!"GETMETADATA"] := Begs0.bind _ _
instance : Errs authenticate [b!"AUTHENTICATE "] := Errs.bind _ _
instance : Begs0 Grammar.authenticate [b!"AUTHENTICATE "] := Begs0.bind _ _
instance : Errs create [b!"CREATE "] := Errs.map _ _
instance : Errs delete [b!"DELETE "] := Errs.map _ _
instance : Errs subscribe [b!"SUBSCRIBE "] := Errs.map _ _
instance : Errs unsubscribe [b!"UNSUBSCRIBE "] := Errs.map _ _
instance : Errs getquota [b!"GETQUOTA "] := Errs.map _ _
instance : Errs getquotaroot [b!"GETQUOTAROOT "] := Errs.map _ _
instance : Errs uidExpunge [b!"UID EXPUNGE "] := Errs.map _ _
instance : Errs enable [b!"ENABLE"] := Errs.bind _ _
instance : Begs0 Grammar.enable [b!"ENABLE"] := Begs0.map _ _
instance : Errs compress [b!"COMPRESS "] := Errs.bind _ _
instance : Errs idCommand [b!"ID "] := Errs.bind _ _
instance : Errs sort [b!"UID SORT ", b!"SORT "] := by unfold sort; exact Errs.mono inferInstance (by decide +kernel)
instance : Errs thread [b!"UID THREAD ", b!"THREAD "] := by unfold thread; exact Errs.mono inferInstance (by decide +kernel)
instance : Begs Grammar.sort T [b!"UID SORT ", b!"SORT "] := by
  unfold Grammar.sort Grammar.uidPrefix
  refine ⟨fun h hr => ?_⟩
  obtain ⟨k, hk, hb⟩ := Begs.out h hr
  exact ⟨k, by simpa using hk, hb⟩
instance : Begs Grammar.thread T [b!"UID THREAD ", b!"THREAD "] := by
  unfold Grammar.thread Grammar.uidPrefix
  refine ⟨fun h hr => ?_⟩
  obtain ⟨k, hk, hb⟩ := Begs.out h hr
  exact ⟨k, by simpa using hk, hb⟩

/-- What commands after `UID` begin with. -/
def uidHeads : List Bytes := [b!"COPY", b!"FETCH", b!"SEARCH", b!"STORE", b!"MOVE"]

instance : Errs uidBody uidHeads := by unfold uidBody; exact Errs.mono inferInstance (by decide +kernel)

instance : Errs uid (uidHeads.map fun k => b!"UID " ++ k) := by
  have h : Errs (tagNC b!"UID" >>= fun _ => sp >>= fun _ => mapRes uidBody CommandBody.setUid)
    ((uidHeads.map fun e => b!" " ++ e).map fun e => b!"UID" ++ e) := Errs.tagNC_bind _ _
  exact Errs.mono h (by decide +kernel)

instance : Begs0 (do lit b!"UID "; gUid true) ([b!"COPY ", b!"FETCH ", b!"SEARCH", b!"STORE ", b!"MOVE "].map fun k => b!"UID " ++ k) := by
  unfold gUid
  exact Begs0.mono (Begs0.lit_bind _ _) (by decide +kernel)

/-- The grammar of `commandAny`. -/
abbrev gAny : List (G CommandBody) := [
  is b!"CAPABILITY" .capability,
  is b!"LOGOUT" .logout,
  is b!"NOOP" .noop,
  onlyIf Quirks.extId (.id <$> do lit b!"ID "; Grammar.idParams)]

/-- The grammar of `commandAuth`. -/
abbrev gAuth : List (G CommandBody) := [
  Grammar.append,
  .create <$> do lit b!"CREATE "; Grammar.mailbox,
  .delete <$> do lit b!"DELETE "; Grammar.mailbox,
  Grammar.examine,
  Grammar.list,
  Grammar.lsub,
  Grammar.rename,
  Grammar.select,
  Grammar.status,
  .subscribe <$> do lit b!"SUBSCRIBE "; Grammar.mailbox,
  .unsubscribe <$> do lit b!"UNSUBSCRIBE "; Grammar.mailbox,
  is b!"IDLE" .idle,
  Grammar.enable,
  is b!"COMPRESS DEFLATE" .compress,
  .getQuota <$> do lit b!"GETQUOTA "; Grammar.astring,
  .getQuotaRoot <$> do lit b!"GETQUOTAROOT "; Grammar.mailbox,
  Grammar.setquota,
  onlyIf Quirks.extMetadata Grammar.setmetadata,
  onlyIf Quirks.extMetadata Grammar.getmetadata,
  onlyIf Quirks.extNamespace (is b!"NAMESPACE" .namespace_)]

/-- The grammar of `commandNonauth`. -/
abbrev gNonauth : List (G CommandBody) := [Grammar.login, Grammar.authenticate, onlyIf Quirks.starttls (is b!"STARTTLS" .startTls)]

/-- The grammar of `commandSelect`. -/
abbrev gSelect : List (G CommandBody) := [
  is b!"CHECK" .check,
  is b!"CLOSE" .close,
  is b!"EXPUNGE" .expunge,
  .expungeUid <$> do lit b!"UID EXPUNGE "; Grammar.sequenceSet,
  plain copyOf copyArgs false,
  plain fetchOf fetchArgs false,
  plain storeOf storeArgs false,
  do lit b!"UID "; gUid true,
  plain searchOf searchArgs false,
  Grammar.sort,
  Grammar.thread,
  is b!"UNSELECT" .unselect,
  plain moveOf moveArgs false]

theorem fits_any : Fits commandAny (choice gAny) T := by
  unfold commandAny gAny
  keywords
  exact Fits.alt_one (Fits.gate (Fits.map (Fits.word inferInstance fits_idParams)))

theorem fits_auth : Fits commandAuth (choice gAuth) T := by
  unfold commandAuth gAuth
  refine Fits.alt_cons fits_append ?_ (by decide +kernel)
  refine Fits.alt_cons (Fits.map (Fits.word inferInstance (fits_mailbox (by decide)))) ?_ (by decide +kernel)
  refine Fits.alt_cons (Fits.map (Fits.word inferInstance (fits_mailbox (by decide)))) ?_ (by decide +kernel)
  refine Fits.alt_cons fits_examine ?_ (by decide +kernel)
  refine Fits.alt_cons fits_list ?_ (by decide +kernel)
  refine Fits.alt_cons fits_lsub ?_ (by decide +kernel)
  refine Fits.alt_cons fits_rename ?_ (by decide +kernel)
  refine Fits.alt_cons fits_select ?_ (by decide +kernel)
  refine Fits.alt_cons fits_status ?_ (by decide +kernel)
  refine Fits.alt_cons (Fits.map (Fits.word inferInstance (fits_mailbox (by decide)))) ?_ (by decide +kernel)
  refine Fits.alt_cons (Fits.map (Fits.word inferInstance (fits_mailbox (by decide)))) ?_ (by decide +kernel)
  keywords
  refine Fits.alt_cons fits_enable ?_ (by decide +kernel)
  refine Fits.alt_cons fits_compress ?_ (by decide +kernel)
  refine Fits.alt_cons (Fits.map (Fits.word inferInstance (fits_astring (by decide)))) ?_ (by decide +kernel)
  refine Fits.alt_cons (Fits.map (Fits.word inferInstance (fits_mailbox (by decide)))) ?_ (by decide +kernel)
  refine Fits.alt_cons fits_setquota ?_ (by decide +kernel)
  refine Fits.alt_cons fits_setmetadata.gate ?_ (by decide +kernel)
  refine Fits.alt_cons fits_getmetadata.gate ?_ (by decide +kernel)
  keywords

theorem fits_nonauth : Fits commandNonauth (choice gNonauth) T := by
  unfold commandNonauth gNonauth
  refine Fits.alt_cons fits_login ?_ (by decide +kernel)
  refine Fits.alt_cons fits_authenticate ?_ (by decide +kernel)
  keywords

theorem fits_commandSelect : Fits commandSelect (choice gSelect) T := by
  unfold commandSelect gSelect
  keywords
  refine Fits.alt_cons (Fits.map (Fits.word inferInstance (fits_sequenceSet.mono (by decide)))) ?_ (by decide +kernel)
  refine Fits.alt_cons fits_copy ?_ (by decide +kernel)
  refine Fits.alt_cons fits_fetch ?_ (by decide +kernel)
  refine Fits.alt_cons fits_store ?_ (by decide +kernel)
  refine Fits.alt_cons fits_uid ?_ (by decide +kernel)
  refine Fits.alt_cons fits_search ?_ (by decide +kernel)
  refine Fits.alt_cons fits_sort ?_ (by decide +kernel)
  refine Fits.alt_cons fits_thread ?_ (by decide +kernel)
  keywords
  exact Fits.alt_one fits_move

instance : Errs commandAny [b!"CAPABILITY", b!"LOGOUT", b!"NOOP", b!"ID "] := by
  unfold commandAny; exact Errs.mono inferInstance (by decide +kernel)
instance : Errs commandNonauth [b!"LOGIN", b!"AUTHENTICATE ", b!"STARTTLS"] := by
  unfold commandNonauth; exact Errs.mono inferInstance (by decide +kernel)

/-- What the commands of `commandAuth` begin with. -/
def authHeads : List Bytes := [b!"APPEND ", b!"CREATE ", b!"DELETE ", b!"EXAMINE ", b!"LIST ", b!"LSUB ", b!"RENAME ", b!"SELECT ", b!"STATUS ",
  b!"SUBSCRIBE ", b!"UNSUBSCRIBE ", b!"IDLE", b!"ENABLE", b!"COMPRESS ", b!"GETQUOTA ", b!"GETQUOTAROOT ", b!"SETQUOTA ", b!"SETMETADATA",
  b!"GETMETADATA", b!"NAMESPACE"]

instance : Errs commandAuth authHeads := by unfold commandAuth; exact Errs.mono inferInstance (by decide +kernel)

omit [Quirks] in
theorem choice_append {l l' : List (G α)} {w : Bytes} {v : α} : choice (l ++ l') w v ↔ choice l w v ∨ choice l' w v := by
  induction l with
  | nil => simp [choice_nil]
  | cons g l ih => rw [List.cons_append, choice_cons, choice_cons, ih, or_assoc]

omit [Quirks] in
theorem lit_choice {k : Bytes} {l : List (G α)} {w : Bytes} {v : α} :
    (lit k >>= fun _ => choice l) w v ↔ choice (l.map fun g => lit k >>= fun _ => g) w v := by
  constructor
  · rintro ⟨w1, w2, _, rfl, h1, g, hg, h2⟩
    exact ⟨_, List.mem_map.2 ⟨g, hg, rfl⟩, w1, w2, (), rfl, h1, h2⟩
  · rintro ⟨_, hg, h⟩
    obtain ⟨g, hg', rfl⟩ := List.mem_map.1 hg
    obtain ⟨w1, w2, _, rfl, h1, h2⟩ := h
    exact ⟨w1, w2, (), rfl, h1, g, hg', h2⟩

theorem commandBody_iff {w : Bytes} {v : CommandBody} :
    choice [choice gAny, choice gAuth, choice gNonauth, choice gSelect] w v ↔ Grammar.commandBody w v := by
  have e : Grammar.commandBody = choice (gAny ++ (gAuth ++ (gNonauth ++ [
    is b!"CHECK" .check, is b!"CLOSE" .close, is b!"EXPUNGE" .expunge, Grammar.copy, Grammar.fetch, Grammar.store, Grammar.search,
    .expungeUid <$> do lit b!"UID EXPUNGE "; Grammar.sequenceSet,
    Grammar.sort, Grammar.thread, is b!"UNSELECT" .unselect, Grammar.move]))) := rfl
  rw [e, choice_append, choice_append, choice_append]
  simp only [choice_cons (gs := []), choice_cons (gs := [_]), choice_cons (gs := [_, _]), choice_cons (gs := [_, _, _]), choice_nil, or_false]
  refine or_congr_right (or_congr_right (or_congr_right ?_))
  simp only [gSelect, gUid, choice_cons, choice_nil, or_false, lit_choice, List.map_cons, List.map_nil, copy_eq, fetch_eq, store_eq, search_eq,
    move_eq, uidPrefix_iff]
  tauto

theorem fits_commandBody : Fits (alt [commandAny, commandAuth, commandNonauth, commandSelect]) Grammar.commandBody T := by
  refine Fits.iff ?_ fun w v => commandBody_iff.symm
  refine Fits.alt_cons fits_any ?_ (by decide +kernel)
  refine Fits.alt_cons fits_auth ?_ (by decide +kernel)
  refine Fits.alt_cons fits_nonauth ?_ (by decide +kernel)
  exact Fits.alt_one fits_commandSelect

theorem fits_line {p : P α} {g : G α} (h : Fits p g T) :
    FitsAny (do let b ← p; crlf; return b) (do let b ← g; Grammar.crlf; return b) := ⟨by
  intro x r v e
  simp only [P.bind_apply, Res.andThen_eq_ok] at e
  obtain ⟨i, b, e1, i', _, e2, e3⟩ := e
  cases e3
  obtain ⟨w, rfl, h1⟩ := h.sound e1
  obtain ⟨w', rfl, h2⟩ := fits_crlf.sound e2
  exact ⟨w ++ w', by simp, w, w', _, rfl, h1, w', [], (), by simp, h2, rfl, rfl⟩, by
  rintro w v r ⟨w1, w2, b, rfl, h1, w3, w4, _, rfl, h2, rfl, rfl⟩
  have hs : Starts T (w3 ++ r) := by
    rcases h2 with rfl | ⟨-, rfl⟩
    · exact ⟨13, 10 :: r, rfl, by decide⟩
    · exact ⟨10, r, rfl, by decide⟩
  rw [List.append_nil, List.append_assoc, P.bind_apply, h.complete h1 hs, Res.andThen_ok, P.bind_apply, fits_crlf.complete _ h2, Res.andThen_ok]
  rfl⟩

omit [Quirks] in
theorem fits_sp : FitsAny sp Grammar.sp := ⟨(Fits.lit (S := T) (p := sp) inferInstance).sound, by
  intro w v r h
  rw [sp_eq]
  exact tagNC_ok h r⟩

omit [Quirks] in
theorem sp_word {w : Bytes} {v : Unit} (h : Grammar.sp w v) : w = [32] := by
  have key : ∀ b : UInt8, lower b = 32 → b = 32 := forall_byte (by decide)
  have h : lowerAll w = [32] := h
  obtain ⟨c, w', rfl⟩ : ∃ c w', w = c :: w' := by cases w <;> simp [lowerAll] at h ⊢
  simp only [lowerAll, List.map_cons, List.cons.injEq, List.map_eq_nil_iff] at h
  rw [key c h.1, h.2]

theorem fits_command : FitsAny command Grammar.command := by
  have hb := fits_line fits_commandBody
  have ht : Fits tagImap Grammar.tag b!" " := fits_takeWhile1 Spec.tagChar_iff (by decide)
  refine ⟨?_, ?_⟩
  · intro x r v e
    rw [command_eq] at e
    simp only [Res.andThen_eq_ok, fillTag_ok] at e
    obtain ⟨i, t, e1, i', _, e2, e3⟩ := e
    obtain ⟨i'', b, e4, e5⟩ := Res.andThen_eq_ok.1 e3
    cases e5
    obtain ⟨w1, rfl, h1⟩ := ht.sound e1
    obtain ⟨w2, rfl, h2⟩ := fits_sp.sound e2
    obtain ⟨w3, rfl, w4, w5, b', rfl, h3, w6, w7, _, rfl, h4, rfl, hv⟩ := hb.sound e4
    obtain rfl := hv
    exact ⟨w1 ++ (w2 ++ (w4 ++ w6)), by simp, w1, _, t, rfl, h1, w2, _, (), rfl, h2, w4, _, _, rfl, h3, w6, [], (), by simp, h4, rfl, rfl⟩
  · rintro w v r ⟨w1, w2, t, rfl, h1, w3, w4, _, rfl, h2, w5, w6, b, rfl, h3, w7, w8, _, rfl, h4, rfl, rfl⟩
    have hs : Starts b!" " (w3 ++ (w5 ++ (w7 ++ r))) := by
      rw [sp_word h2]
      exact ⟨32, _, rfl, by simp⟩
    have h5 := hb.complete r ⟨w5, w7, b, rfl, h3, w7, [], (), by simp, h4, rfl, rfl⟩
    rw [command_eq]
    simp only [List.append_assoc, List.append_nil] at h5 ⊢
    rw [ht.complete h1 hs, Res.andThen_ok, fits_sp.complete _ h2, Res.andThen_ok, fillTag_ok]
    exact Res.andThen_eq_ok.2 ⟨_, _, h5, rfl⟩

theorem fits_authenticateData : FitsAny authenticateData Grammar.authenticateData := by
  have h1 := fits_line (fits_base64 (S := T) (by decide))
  have e2 : value AuthenticateData.cancel (do tag b!"*"; crlf) = (do let a ← value AuthenticateData.cancel (tag b!"*"); crlf; return a) := by
    simp only [value, bind_assoc, pure_bind]
  have h2 := fits_line (Fits.is (S := T) (p := tag b!"*") (k' := b!"*") (a := AuthenticateData.cancel) inferInstance)
  rw [← e2] at h2
  refine ⟨?_, ?_⟩
  · intro x r v e
    rcases exists_of_alt2 e with e | e
    · obtain ⟨i, a, e1, e2⟩ := Res.andThen_eq_ok.1 e
      cases e2
      obtain ⟨w, rfl, h⟩ := h1.sound e1
      exact ⟨w, rfl, _, List.mem_cons_self .., _, h, rfl⟩
    · obtain ⟨w, rfl, h⟩ := h2.sound e
      exact ⟨w, rfl, _, List.mem_cons_of_mem _ (List.mem_cons_self ..), h⟩
  · intro w v r h
    rw [authenticateData, alt_cons]
    rcases choice_cons.1 h with ⟨d, hd, rfl⟩ | h
    · refine orElse_ok ?_
      rw [P.map_apply, h1.complete r hd]
      rfl
    · have h' := (choice_cons.1 h).resolve_right choice_nil.1
      have he : (AuthenticateData.continue_ <$> (do let d ← base64; crlf; return d) : P AuthenticateData) (w ++ r) = .error := by
        obtain ⟨w1, w2, _, rfl, ⟨hw, -⟩, -⟩ := h'
        have key : ∀ b : UInt8, lower b = 42 → b = 42 := forall_byte (by decide)
        have hw : lowerAll w1 = [42] := hw
        obtain ⟨c, w', rfl⟩ : ∃ c w', w1 = c :: w' := by cases w1 <;> simp [lowerAll] at hw ⊢
        simp only [lowerAll, List.map_cons, List.cons.injEq, List.map_eq_nil_iff] at hw
        obtain ⟨hc, rfl⟩ := hw
        obtain rfl := key c hc
        have hb : base64 (42 :: (w2 ++ r)) = .ok (42 :: (w2 ++ r)) [] := by
          have hp : (do let _ ← takeWhile isBase64Char; opt (alt [tag b!"==", tag b!"="]) : P (Option Unit)) (42 :: (w2 ++ r)) =
            .ok (42 :: (w2 ++ r)) none := rfl
          simp only [base64, mapRes, recognize, hp, Res.andThen_ok, Nat.sub_self]
          rfl
        have hc : crlf (42 :: (w2 ++ r)) = .error := by
          unfold crlf
          split <;> rfl
        rw [P.map_apply, List.cons_append, List.cons_append, List.nil_append, P.bind_apply, hb, Res.andThen_ok, P.bind_apply, hc]
        rfl
      rw [orElse_error he, alt_cons]
      exact orElse_ok (h2.complete r h')

theorem fits_idleDone : FitsAny idleDone Grammar.idleDone := by
  refine ⟨?_, ?_⟩
  · intro x r v e
    simp only [idleDone, value, P.bind_apply, Res.andThen_eq_ok] at e
    obtain ⟨i, _, ⟨i', _, e1, e2⟩, e3⟩ := e
    cases e3
    obtain ⟨w, rfl, h1⟩ := exists_of_tagNC' e1
    obtain ⟨w', rfl, h2⟩ := fits_crlf.sound e2
    exact ⟨w ++ w', by simp, w, w', (), rfl, h1, h2⟩
  · rintro w v r ⟨w1, w2, _, rfl, h1, h2⟩
    simp only [idleDone, value, P.bind_apply, List.append_assoc]
    rw [tagNC_ok h1, Res.andThen_ok, fits_crlf.complete r h2]
    rfl

end Imap.Gr
