import Verif.GrammarParts
/-
Parsers and grammars: search keys and items of FETCH.
-/
set_option maxRecDepth 10000

namespace Imap.Gr

open Imap.Grammar (G Star choice onlyIf optD sepBy1 sepBy0 such token octets named lit is plus)

variable {α β γ : Type}

theorem choice_nil {w : Bytes} {v : α} : choice [] w v ↔ False := ⟨fun ⟨_, h, _⟩ => by simp at h, False.elim⟩

theorem choice_cons {g : G α} {gs : List (G α)} {w : Bytes} {v : α} : choice (g :: gs) w v ↔ g w v ∨ choice gs w v := by
  constructor
  · rintro ⟨g', h, hw⟩
    rcases List.mem_cons.1 h with rfl | h
    · exact .inl hw
    · exact .inr ⟨g', h, hw⟩
  · rintro (h | ⟨g', h, hw⟩)
    · exact ⟨g, List.mem_cons_self .., h⟩
    · exact ⟨g', List.mem_cons_of_mem _ h, hw⟩

/-! ### Search keys -/

theorem recognises_attributeFlag : Spec.Recognises Grammar.attributeFlagNames .extension AttributeFlag.system := by
  intro a
  simp only [Grammar.attributeFlagNames, List.forall_mem_cons, AttributeFlag.system]
  refine ⟨⟨?_, ?_, ?_, ?_, ?_, by simp⟩, ?_⟩
  all_goals (intro h; simp_all)

/-- What flags begin with. -/
def attrFlagHeads : List Bytes := b!"\\\\" :: allOf isAtomChar

instance : Begs0 Grammar.attrFlag attrFlagHeads :=
  Begs0.mono (B := [b!"\\\\"] ++ (allOf isAtomChar ++ [])) (by unfold Grammar.attrFlag; infer_instance) (by simp [attrFlagHeads])

theorem fits_attrFlag {S : List UInt8} (hS : outside isAtomChar S = true) : Fits attrFlag Grammar.attrFlag S := by
  unfold attrFlag Grammar.attrFlag
  rw [map_bind_word]
  exact Fits.alt_cons (Fits.word inferInstance (fits_named recognises_attributeFlag hS)) (Fits.alt_one (Fits.map (fits_atom hS)))
    (hb := Begs.of _ inferInstance) (by decide +kernel)

theorem fits_searchModsequence :
    Fits ((fun x => SearchKey.modSequence x.1 x.2) <$> searchModsequence) Grammar.searchModsequence S0 := by
  simp only [searchModsequence, searchModseqExt, entryName, Grammar.searchModsequence, map_eq_pure_bind, bind_assoc, pure_bind]
  refine Fits.word inferInstance ?_
  refine Fits.opt (S1 := b!" ") (Fits.word2 inferInstance inferInstance ?_) (fun a => ?_) ?_ (by decide +kernel) (by decide +kernel)
  · refine Fits.bind (S1 := b!"\"") (fits_attrFlag (by decide)) (fun f => ?_) (by decide +kernel)
    refine Fits.word2 inferInstance inferInstance ?_
    refine Fits.bind (S1 := b!" ") ?_ (fun t => Fits.pure) (by decide +kernel)
    unfold entryTypeReq
    keywords
  · exact Fits.word inferInstance (Fits.bind (S1 := S0) (fits_number64 (by decide)) (fun n => Fits.pure) (by decide +kernel))
  · exact Fits.word inferInstance (Fits.bind (S1 := S0) (fits_number64 (by decide)) (fun n => Fits.pure) (by decide +kernel))

instance : Begs0 Grammar.searchModsequence [b!"MODSEQ"] := Begs0.bind _ _
instance : Errs searchModsequence [b!"MODSEQ"] := Errs.bind _ _

variable [Quirks]

/-- What search keys begin with. -/
def searchKeyHeads : List Bytes := [b!"ALL", b!"ANSWERED", b!"BCC ", b!"BEFORE ", b!"BODY ", b!"CC ", b!"DELETED", b!"FLAGGED", b!"FROM ",
  b!"KEYWORD ", b!"NEW", b!"OLD", b!"ON ", b!"RECENT", b!"SEEN", b!"SINCE ", b!"SUBJECT ", b!"TEXT ", b!"TO ", b!"UNANSWERED", b!"UNDELETED",
  b!"UNFLAGGED", b!"UNKEYWORD ", b!"UNSEEN", b!"DRAFT", b!"HEADER ", b!"LARGER ", b!"NOT ", b!"OR ", b!"SENTBEFORE ", b!"SENTON ",
  b!"SENTSINCE ", b!"SMALLER ", b!"UID ", b!"UNDRAFT", b!"MODSEQ"] ++ seqHeads ++ [b!"("]

instance begs0_searchKey (n : Nat) : Begs0 (Grammar.searchKey n) searchKeyHeads := by
  cases n with
  | zero =>
    refine Begs0.mono (B := []) ?_ (by simp)
    unfold Grammar.searchKey
    infer_instance
  | succ n =>
    unfold Grammar.searchKey
    exact Begs0.mono inferInstance (by decide +kernel)

/-- Alternatives of search keys. -/
syntax "search_keys" term : tactic
macro_rules
  | `(tactic| search_keys $ih) => `(tactic| repeat first
    | refine Fits.alt_cons (Fits.is inferInstance) ?_ (by decide +kernel)
    | refine Fits.alt_cons (Fits.map (Fits.word2 inferInstance inferInstance (fits_astring (by decide)))) ?_ (by decide +kernel)
    | refine Fits.alt_cons (Fits.map (Fits.word2 inferInstance inferInstance fits_date.fits)) ?_ (by decide +kernel)
    | refine Fits.alt_cons (Fits.map (Fits.word2 inferInstance inferInstance (fits_atom (by decide)))) ?_ (by decide +kernel)
    | refine Fits.alt_cons (Fits.map (Fits.word2 inferInstance inferInstance (fits_number (by decide)))) ?_ (by decide +kernel)
    | refine Fits.alt_cons (Fits.map (Fits.word2 inferInstance inferInstance fits_sequenceSet)) ?_ (by decide +kernel)
    | refine Fits.alt_cons (Fits.map (Fits.word2 inferInstance inferInstance $ih)) ?_ (by decide +kernel)
    | refine Fits.alt_cons (Fits.gate fits_searchModsequence) ?_ (by decide +kernel)
    | refine Fits.alt_cons (Fits.map fits_sequenceSet) ?_ (by decide +kernel))

theorem fits_searchKey (n : Nat) : Fits (searchKey n) (Grammar.searchKey n) S0 := by
  induction n with
  | zero =>
    unfold searchKey Grammar.searchKey
    refine ⟨fun h => by simp at h, ?_⟩
    rintro w v r ⟨g, hg, -⟩
    simp at hg
  | succ n ih =>
    unfold searchKey Grammar.searchKey
    search_keys ih
    refine Fits.alt_cons (Fits.word2 inferInstance inferInstance ?_) ?_ (by decide +kernel)
    · exact Fits.bind (S1 := S0) (fits_astring (by decide)) (fun a => Fits.word inferInstance
        (Fits.bind (S1 := S0) (fits_astring (by decide)) (fun b => Fits.pure) (by decide +kernel))) (by decide +kernel)
    search_keys ih
    refine Fits.alt_cons (Fits.word2 inferInstance inferInstance ?_) ?_ (by decide +kernel)
    · exact Fits.bind (S1 := S0) ih (fun a => Fits.word inferInstance
        (Fits.bind (S1 := S0) ih (fun b => Fits.pure) (by decide +kernel))) (by decide +kernel)
    search_keys ih
    refine Fits.alt_one (Fits.map ?_)
    unfold Grammar.parens
    refine Fits.word inferInstance ?_
    refine Fits.sepBy1 (S1 := S0) (ListOk.mk' (by decide +kernel) (by decide +kernel) (by decide +kernel)) ih fun l => ?_
    exact Fits.word inferInstance Fits.pure

theorem fits_searchKeys : Fits (sepList1 sp (searchKey 9)) Grammar.searchKeys T :=
  Fits.list (ListOk.mk' (S1 := S0) (by decide +kernel) (by decide +kernel) (by decide +kernel)) (fits_searchKey 9)

instance : Begs0 Grammar.searchKeys searchKeyHeads := Begs0.sepBy1 _ _

/-! ### Items of FETCH -/

theorem fits_headerList {S : List UInt8} : Fits headerList Grammar.headerList S := by
  unfold headerList Grammar.headerList Grammar.parens
  refine Fits.word inferInstance ?_
  refine Fits.sepBy1 (S1 := b!" )") (ListOk.mk' (hk := fun l => Begs.of _ inferInstance) (by decide +kernel) (by decide +kernel) (by decide +kernel))
    (fits_astring (by decide)) fun l => ?_
  exact Fits.word inferInstance Fits.pure

/-- `section-msgtext`, without part numbers. -/
def gMsgtext : G PartSpecifier :=
  choice [.headerFieldsNot <$> do lit b!"HEADER.FIELDS.NOT "; Grammar.headerList,
    .headerFields <$> do lit b!"HEADER.FIELDS "; Grammar.headerList,
    is b!"HEADER" .header,
    is b!"TEXT" .text]

theorem fits_msgtext : Fits sectionMsgtext gMsgtext b!"]" := by
  unfold sectionMsgtext gMsgtext
  refine Fits.alt_cons (Fits.map (Fits.word2 inferInstance inferInstance fits_headerList)) ?_ (by decide +kernel)
  refine Fits.alt_cons (Fits.map (Fits.word2 inferInstance inferInstance fits_headerList)) ?_ (by decide +kernel)
  keywords

/-- What `section-msgtext` begins with. -/
def msgtextHeads : List Bytes := [b!"HEADER.FIELDS.NOT", b!"HEADER.FIELDS", b!"HEADER", b!"TEXT"]

instance : Errs sectionMsgtext msgtextHeads := by unfold sectionMsgtext; exact Errs.mono inferInstance (by decide +kernel)
instance : Begs0 gMsgtext [b!"HEADER", b!"TEXT"] := by
  refine ⟨fun {w v} h => ?_⟩
  have hb : Begs0 gMsgtext ([b!"HEADER.FIELDS.NOT "] ++ ([b!"HEADER.FIELDS "] ++ ([b!"HEADER"] ++ ([b!"TEXT"] ++ [])))) := by
    unfold gMsgtext; infer_instance
  obtain ⟨k, hk, k', x', rfl, e⟩ := hb.out h
  have key : ∀ k ∈ ([b!"HEADER.FIELDS.NOT "] ++ ([b!"HEADER.FIELDS "] ++ ([b!"HEADER"] ++ ([b!"TEXT"] ++ [])))),
      ∃ j ∈ [b!"HEADER", b!"TEXT"], ∃ t, k = j ++ t := by
    intro k hk
    simp only [List.cons_append, List.nil_append, List.mem_cons, List.not_mem_nil, or_false] at hk
    rcases hk with rfl | rfl | rfl | rfl
    · exact ⟨b!"HEADER", by simp, b!".FIELDS.NOT ", rfl⟩
    · exact ⟨b!"HEADER", by simp, b!".FIELDS ", rfl⟩
    · exact ⟨b!"HEADER", by simp, [], rfl⟩
    · exact ⟨b!"TEXT", by simp, [], rfl⟩
  obtain ⟨j, hj, t, rfl⟩ := key k hk
  simp only [lowerAll, List.map_append] at e
  obtain ⟨u1, u2, rfl, e1, e2⟩ := List.map_eq_append_iff.1 e
  exact ⟨j, hj, u1, u2 ++ x', by simp, e1⟩

/-- `section-text`, without part numbers. -/
def gText : G PartSpecifier := choice [gMsgtext, is b!"MIME" .mime]

instance : Begs0 gText ([b!"HEADER", b!"TEXT"] ++ ([b!"MIME"] ++ [])) := by unfold gText; infer_instance

theorem fits_text : Fits sectionText gText b!"]" :=
  Fits.alt_cons fits_msgtext (Fits.alt_one (Fits.is inferInstance)) (by decide +kernel)

instance : Errs sectionText (msgtextHeads ++ [b!"MIME"]) := by unfold sectionText; infer_instance

instance (priority := 1100) errs_dot (f : Unit → P β) {E : List Bytes} [h : Errs (f ()) E] :
    Errs (tag b!"." >>= f) (E.map fun e => b!"." ++ e) := by rw [tag_symbols (by decide)]; exact Errs.tagNC_bind _ _

instance (priority := 1100) begs0_dot (f : Unit → G β) {B : List Bytes} [h : Begs0 (f ()) B] :
    Begs0 (lit b!"." >>= f) (B.map fun e => b!"." ++ e) := Begs0.lit_bind _ _

instance : Begs0 Grammar.sectionPart (allOf isDigit) := Begs0.sepBy1 _ _
instance : Errs sectionPart (allOf isDigit) := Errs.sepList1 _ _

/-- `section-msgtext`, as a section without part numbers. -/
def gMsgSection : G Section := fun w v => ∃ a, gMsgtext w a ∧ Section.ofMsgtext a = some v

theorem fits_sectionSpec : Fits sectionSpec Grammar.sectionSpec b!"]" := by
  have h2 : Fits (do let p ← sectionPart; let t ← opt (do tag b!"."; sectionText); return Section.ofPart p t)
      (do let p ← Grammar.sectionPart; let t ← Grammar.opt (do lit b!"."; gText); return Section.ofPart p t) b!"]" := by
    refine Fits.sepBy1 (S1 := b!".]") (ListOk.mk' (by decide +kernel) (by decide +kernel) (by decide +kernel)) (fits_nzNumber (by decide)) fun p => ?_
    refine Fits.opt (S1 := b!"]") (Fits.word inferInstance fits_text) (fun a => Fits.pure) Fits.pure (by decide +kernel) (by decide +kernel)
  have h1 : Fits (mapRes sectionMsgtext Section.ofMsgtext) gMsgSection b!"]" :=
    fits_msgtext.mapRes
  have hb : Begs0 gMsgSection [b!"HEADER", b!"TEXT"] := ⟨by
    rintro w v ⟨a, h, -⟩
    exact Begs0.out h⟩
  have h12 := Fits.alt_cons h1 (Fits.alt_one h2) (by decide +kernel)
  refine h12.iff fun w v => ?_
  rw [Grammar.sectionSpec]
  simp only [choice_cons, choice_nil, or_false]
  have e1 : gMsgSection w v ↔ Grammar.sectionMsgtext none w v := by
    simp only [gMsgSection, gMsgtext, Grammar.sectionMsgtext, choice, List.mem_cons, List.not_mem_nil, or_false, exists_eq_or_imp, exists_eq_left]
    constructor
    · rintro ⟨a, ⟨l, h, rfl⟩ | ⟨l, h, rfl⟩ | ⟨h, rfl⟩ | ⟨h, rfl⟩, e⟩ <;> cases e
      · exact .inl ⟨l, h, rfl⟩
      · exact .inr (.inl ⟨l, h, rfl⟩)
      · exact .inr (.inr (.inl ⟨h, rfl⟩))
      · exact .inr (.inr (.inr ⟨h, rfl⟩))
    · rintro (⟨l, h, rfl⟩ | ⟨l, h, rfl⟩ | ⟨h, rfl⟩ | ⟨h, rfl⟩)
      · exact ⟨_, .inl ⟨l, h, rfl⟩, rfl⟩
      · exact ⟨_, .inr (.inl ⟨l, h, rfl⟩), rfl⟩
      · exact ⟨_, .inr (.inr (.inl ⟨h, rfl⟩)), rfl⟩
      · exact ⟨_, .inr (.inr (.inr ⟨h, rfl⟩)), rfl⟩
  have e2 : ∀ p w v, (∃ a, gMsgtext w a ∧ v = Section.ofPart p (some a)) ↔ Grammar.sectionMsgtext (some p) w v := by
    intro p w v
    simp only [gMsgtext, Grammar.sectionMsgtext, choice, List.mem_cons, List.not_mem_nil, or_false, exists_eq_or_imp, exists_eq_left]
    constructor
    · rintro ⟨a, ⟨l, h, rfl⟩ | ⟨l, h, rfl⟩ | ⟨h, rfl⟩ | ⟨h, rfl⟩, rfl⟩
      · exact .inl ⟨l, h, rfl⟩
      · exact .inr (.inl ⟨l, h, rfl⟩)
      · exact .inr (.inr (.inl ⟨h, rfl⟩))
      · exact .inr (.inr (.inr ⟨h, rfl⟩))
    · rintro (⟨l, h, rfl⟩ | ⟨l, h, rfl⟩ | ⟨h, rfl⟩ | ⟨h, rfl⟩)
      · exact ⟨_, .inl ⟨l, h, rfl⟩, rfl⟩
      · exact ⟨_, .inr (.inl ⟨l, h, rfl⟩), rfl⟩
      · exact ⟨_, .inr (.inr (.inl ⟨h, rfl⟩)), rfl⟩
      · exact ⟨_, .inr (.inr (.inr ⟨h, rfl⟩)), rfl⟩
  rw [e1]
  refine or_congr_right ?_
  constructor
  · rintro (⟨p, h, rfl⟩ | ⟨w1, w2, p, rfl, h1, w3, w4, _, rfl, h2, h3⟩ | ⟨w1, w2, p, rfl, h1, w3, w4, _, rfl, h2, h3, rfl⟩)
    · exact ⟨w, [], p, by simp, h, [], [], none, rfl, .inl ⟨rfl, rfl⟩, rfl, rfl⟩
    · obtain ⟨a, h3', rfl⟩ := (e2 p w4 v).2 h3
      exact ⟨w1, _, p, rfl, h1, w3 ++ w4, [], some a, by simp, .inr ⟨a, ⟨w3, w4, (), rfl, h2, gMsgtext, by simp, h3'⟩, rfl⟩, rfl, rfl⟩
    · exact ⟨w1, _, p, rfl, h1, w3 ++ w4, [], some .mime, by simp, .inr ⟨_, ⟨w3, w4, (), rfl, h2, is b!"MIME" .mime, by simp, h3, rfl⟩, rfl⟩, rfl, rfl⟩
  · rintro ⟨w1, w2, p, rfl, h1, w3, w4, o, rfl, ⟨rfl, rfl⟩ | ⟨a, ⟨w5, w6, _, rfl, h2, g, hg, h3⟩, rfl⟩, rfl, rfl⟩
    · exact .inl ⟨p, by simpa using h1, rfl⟩
    · simp only [List.mem_cons, List.not_mem_nil, or_false] at hg
      rcases hg with rfl | rfl
      · exact .inr (.inl ⟨w1, _, p, by simp, h1, w5, w6, (), rfl, h2, (e2 p w6 _).1 ⟨a, h3, rfl⟩⟩)
      · obtain ⟨h3, rfl⟩ := h3
        exact .inr (.inr ⟨w1, _, p, by simp, h1, w5, w6, (), rfl, h2, h3, rfl⟩)

instance : Errs sectionSpec (msgtextHeads ++ allOf isDigit) := by unfold sectionSpec; infer_instance

theorem fits_section {S : List UInt8} : Fits «section» Grammar.section S := by
  unfold «section» Grammar.section
  refine Fits.word inferInstance ?_
  refine Fits.opt (S1 := b!"]") fits_sectionSpec (fun a => Fits.word inferInstance Fits.pure) (Fits.word inferInstance Fits.pure)
    (hk := fun a => Begs.of _ inferInstance) (hb := Begs.of _ inferInstance) (by decide +kernel) (by decide +kernel)

omit [Quirks] in
theorem fits_sectionPart : Fits sectionPart Grammar.sectionPart b!"]" :=
  Fits.list (ListOk.mk' (S1 := b!".]") (by decide +kernel) (by decide +kernel) (by decide +kernel)) (fits_nzNumber (by decide))

omit [Quirks] in
theorem fits_sectionBinary {S : List UInt8} : Fits sectionBinary Grammar.sectionBinary S := by
  unfold sectionBinary Grammar.sectionBinary
  refine Fits.word inferInstance ?_
  refine Fits.optD (S1 := b!"]") fits_sectionPart (fun a => Fits.word inferInstance Fits.pure) (Fits.word inferInstance Fits.pure)
    (hk := fun a => Begs.of _ inferInstance) (hb := Begs.of _ inferInstance) (by decide +kernel) (by decide +kernel)

omit [Quirks] in
theorem fits_partial {S : List UInt8} : Fits partial_ Grammar.partial_ S := by
  unfold partial_ Grammar.partial_
  refine Fits.word inferInstance ?_
  refine Fits.bind (S1 := b!".") (fits_number (by decide)) (fun a => ?_) (hk := fun a => Begs.of _ inferInstance) (by decide +kernel)
  refine Fits.word inferInstance ?_
  refine Fits.bind (S1 := b!">") (fits_nzNumber (by decide)) (fun a => ?_) (hk := fun a => Begs.of _ inferInstance) (by decide +kernel)
  exact Fits.word inferInstance Fits.pure

/-! The words before sections, together with the bracket. -/

instance (priority := 1100) (k : Bytes) (f : Option Section → P β) : Errs (tagNC k >>= fun _ => «section» >>= f) [k ++ b!"["] := by
  unfold «section»
  simp only [bind_assoc]
  exact Errs.tagNC_bind (E := [b!"["]) _ _

instance (priority := 1100) (k : Bytes) (f : List NzU32 → P β) : Errs (tagNC k >>= fun _ => sectionBinary >>= f) [k ++ b!"["] := by
  unfold sectionBinary
  simp only [bind_assoc]
  exact Errs.tagNC_bind (E := [b!"["]) _ _

instance (priority := 1100) (k : Bytes) (f : Option Section → G β) : Begs0 (lit k >>= fun _ => Grammar.section >>= f) [k ++ b!"["] := by
  unfold Grammar.section
  simp only [bind_assoc]
  exact Begs0.lit_bind (B := [b!"["]) _ _

instance (priority := 1100) (k : Bytes) (f : List NzU32 → G β) : Begs0 (lit k >>= fun _ => Grammar.sectionBinary >>= f) [k ++ b!"["] := by
  unfold Grammar.sectionBinary
  simp only [bind_assoc]
  exact Begs0.lit_bind (B := [b!"["]) _ _

instance : Errs partial_ [b!"<"] := Errs.bind _ _
instance : Begs0 Grammar.partial_ [b!"<"] := Begs0.bind _ _

theorem fits_fetchAtt : Fits fetchAtt Grammar.fetchAtt S0 := by
  unfold fetchAtt Grammar.fetchAtt
  have hs : ∀ b : Bool, Fits (do let s ← «section»; let p ← opt partial_; return MessageDataItemName.bodyExt s p b)
      (do let s ← Grammar.section; let p ← Grammar.opt Grammar.partial_; return .bodyExt s p b) S0 := by
    intro b
    refine Fits.bind (S1 := b!"< )\r\n") fits_section (fun s => ?_) (by decide +kernel)
    exact Fits.opt (S1 := S0) fits_partial (fun a => Fits.pure) Fits.pure (by decide +kernel) (by decide +kernel)
  have hb : ∀ b : Bool, Fits (do let s ← sectionBinary; let p ← opt partial_; return MessageDataItemName.binary s p b)
      (do let s ← Grammar.sectionBinary; let p ← Grammar.opt Grammar.partial_; return .binary s p b) S0 := by
    intro b
    refine Fits.bind (S1 := b!"< )\r\n") fits_sectionBinary (fun s => ?_) (by decide +kernel)
    exact Fits.opt (S1 := S0) fits_partial (fun a => Fits.pure) Fits.pure (by decide +kernel) (by decide +kernel)
  keywords
  refine Fits.alt_cons (Fits.word inferInstance (hs true)) ?_ (by decide +kernel)
  refine Fits.alt_cons (Fits.word inferInstance (hs false)) ?_ (by decide +kernel)
  refine Fits.alt_cons (Fits.word inferInstance (hb true)) ?_ (by decide +kernel)
  refine Fits.alt_cons (Fits.word inferInstance (hb false)) ?_ (by decide +kernel)
  refine Fits.alt_cons (Fits.word inferInstance (Fits.bind (S1 := S0) fits_sectionBinary (fun s => Fits.pure) (by decide +kernel))) ?_ (by decide +kernel)
  keywords

/-- What items of FETCH begin with. -/
def fetchHeads : List Bytes := [b!"ENVELOPE", b!"FLAGS", b!"INTERNALDATE", b!"BODYSTRUCTURE", b!"BODY.PEEK[", b!"BODY[", b!"BINARY.PEEK[", b!"BINARY[",
  b!"BINARY.SIZE[", b!"BODY", b!"UID", b!"RFC822.HEADER", b!"RFC822.SIZE", b!"RFC822.TEXT", b!"RFC822", b!"MODSEQ"]

instance : Begs0 Grammar.fetchAtt fetchHeads := by unfold Grammar.fetchAtt; exact Begs0.mono inferInstance (by decide +kernel)
instance : Errs fetchAtt fetchHeads := by unfold fetchAtt; exact Errs.mono inferInstance (by decide +kernel)

theorem fits_fetchItems : Fits macroOrNames Grammar.fetchItems S0 := by
  unfold macroOrNames Grammar.fetchItems
  keywords
  refine Fits.alt_cons (Fits.map fits_fetchAtt) ?_ (by decide +kernel)
  refine Fits.alt_one (Fits.map ?_)
  unfold Grammar.parens
  refine Fits.word inferInstance ?_
  exact Fits.sepBy0 (S1 := S0) (ListOk.mk' (by decide +kernel) (by decide +kernel) (by decide +kernel)) fits_fetchAtt
    (fun l => Fits.word inferInstance Fits.pure) (by decide +kernel) (by decide +kernel)

end Imap.Gr
