import Verif.GrammarServerData
/-
Parsers and grammars: the responses.
-/
set_option maxRecDepth 10000

namespace Imap.Gr

open Imap.Grammar (G Star choice onlyIf optD sepBy1 sepBy0 such token octets named lit is plus)

variable {α β : Type}

/-! ### Rules for alternatives that have more in common than a prefix -/

theorem Fits.alt_cons' {p : P α} {g : G α} {ps : List (P α)} {gs : List (G α)} {S : List UInt8} (h : Fits p g S) (hs : Fits (alt ps) (choice gs) S)
    (he : ∀ {w v r}, choice gs w v → Starts S r → p (w ++ r) = .error) : Fits (alt (p :: ps)) (choice (g :: gs)) S := ⟨by
  intro x r v e
  rw [Imap.alt_cons] at e
  unfold orElse at e
  split at e
  · obtain ⟨w, rfl, g', hg, hw⟩ := hs.sound e
    exact ⟨w, rfl, g', by simp [hg], hw⟩
  · obtain ⟨w, rfl, hw⟩ := h.sound e
    exact ⟨w, rfl, g, by simp, hw⟩, by
  rintro w v r ⟨g', hg, hw⟩ hr
  rcases List.mem_cons.1 hg with rfl | hg
  · rw [Imap.alt_cons, orElse_ok (h.complete hw hr)]
  · have hc : choice gs w v := ⟨g', hg, hw⟩
    rw [Imap.alt_cons, orElse_error (he hc hr)]
    exact hs.complete hc hr⟩

theorem FitsAny.alt_one {p : P α} {g : G α} (h : FitsAny p g) : FitsAny (alt [p]) (choice [g]) := ⟨by
  intro x r v e
  obtain ⟨p', hp, e'⟩ := exists_of_alt e
  simp only [List.mem_singleton] at hp
  subst hp
  obtain ⟨w, rfl, hw⟩ := h.sound e'
  exact ⟨w, rfl, g, by simp, hw⟩, by
  rintro w v r ⟨g', hg, hw⟩
  simp only [List.mem_singleton] at hg
  subst hg
  rw [Imap.alt_cons, orElse_ok (h.complete _ hw)]⟩

theorem FitsAny.alt_cons {p : P α} {g : G α} {ps : List (P α)} {gs : List (G α)} (h : FitsAny p g) (hs : FitsAny (alt ps) (choice gs))
    (he : ∀ {w v} r, choice gs w v → p (w ++ r) = .error) : FitsAny (alt (p :: ps)) (choice (g :: gs)) := ⟨by
  intro x r v e
  rw [Imap.alt_cons] at e
  unfold orElse at e
  split at e
  · obtain ⟨w, rfl, g', hg, hw⟩ := hs.sound e
    exact ⟨w, rfl, g', by simp [hg], hw⟩
  · obtain ⟨w, rfl, hw⟩ := h.sound e
    exact ⟨w, rfl, g, by simp, hw⟩, by
  rintro w v r ⟨g', hg, hw⟩
  rcases List.mem_cons.1 hg with rfl | hg
  · rw [Imap.alt_cons, orElse_ok (h.complete _ hw)]
  · have hc : choice gs w v := ⟨g', hg, hw⟩
    rw [Imap.alt_cons, orElse_error (he _ hc)]
    exact hs.complete _ hc⟩

theorem FitsAny.iff {p : P α} {g g' : G α} (h : FitsAny p g) (hg : ∀ w v, g' w v ↔ g w v) : FitsAny p g' :=
  (show g' = g by funext w v; exact propext (hg w v)) ▸ h

theorem errs0 {p : P α} {g : G β} {E B : List Bytes} [e : Errs p E] [b : Begs0 g B] (h : apart E B = true) {w : Bytes} {v : β} (r : Bytes) (hg : g w v) :
    p (w ++ r) = .error := by
  obtain ⟨k, hk, hb⟩ := b.out hg
  exact e.out fun e he => diverges_append _ (diverges_of_begins hb (List.all_eq_true.1 (List.all_eq_true.1 h e he) k hk))

theorem alt_error {ps : List (P α)} {x : Bytes} (h : ∀ p ∈ ps, p x = .error) : alt ps x = .error := by
  induction ps with
  | nil => rfl
  | cons p ps ih =>
    rw [Imap.alt_cons, orElse_error (h p (List.mem_cons_self ..))]
    exact ih fun p hp => h p (List.mem_cons_of_mem _ hp)

/-! ### Numbers before keywords -/

theorem numWord_error {F : Nat → β} {K w1 x : Bytes} {n : Nat} (hn : Grammar.number w1 n) (hd : diverges K x = true) (hs : Starts b!" " x) :
    (F <$> (do let n ← number; tagNC K; return n) : P β) (w1 ++ x) = .error := by
  rw [P.map_apply, P.bind_apply, (fits_number (S := b!" ") (by decide)).complete hn hs, Res.andThen_ok, P.bind_apply, tagNC_diverges hd]
  rfl

variable [q : Quirks]

/-! ### Data of mailboxes -/

theorem fits_searchData : Fits searchData (do lit b!"SEARCH"; let (l, m) ← Grammar.Server.numbers; Grammar.Server.spIf q.trailingSpaceSearch; return .search l m) T :=
  Fits.word inferInstance (fits_numbers (fun x => fits_spIf Fits.pure (by decide +kernel)) (by decide +kernel) (by decide +kernel) (by decide +kernel))

theorem fits_sortData : Fits sortData (do lit b!"SORT"; let (l, m) ← Grammar.Server.numbers; return .sort l m) T :=
  Fits.word inferInstance (fits_numbers (fun x => Fits.pure) (by decide +kernel) (by decide +kernel) (by decide +kernel))

theorem fits_statusData : Fits statusData (do
    lit b!"STATUS "; let m ← Grammar.mailbox; Grammar.sp; let l ← Grammar.parens (sepBy0 Grammar.sp Grammar.Server.statusAttVal)
    Grammar.Server.spIf q.trailingSpaceStatus; return .status m l) T := by
  unfold statusData
  refine Fits.word inferInstance (Fits.bind (S1 := b!" ") (fits_mailbox (by decide)) (fun m => ?_) (by decide +kernel))
  have := Fits.bind (S1 := b!" \r\n") (S := T) (f := fun l => (do optSpIf q.trailingSpaceStatus; return Data.status m l)) (k := fun l => do Grammar.Server.spIf q.trailingSpaceStatus; return .status m l)
    (fits_statusItems) (fun l => fits_spIf Fits.pure (by decide +kernel)) (by decide +kernel)
  simpa only [bind_assoc] using this

theorem fits_metadataResp : Fits metadataResp (do
    lit b!"METADATA "
    let m ← Grammar.mailbox
    Grammar.sp
    let r ← choice [.withValues <$> Grammar.parens (sepBy1 Grammar.sp (do let e ← Grammar.astring; Grammar.sp; let v ← Grammar.imapValue; return ⟨e, v⟩)),
      .withoutValues <$> sepBy1 Grammar.sp Grammar.astring]
    return .metadata m r) T := by
  unfold metadataResp
  refine Fits.word2 inferInstance inferInstance (Fits.bind (S1 := b!" ") (fits_mailbox (by decide)) (fun m => Fits.word inferInstance ?_) (by decide +kernel))
  refine Fits.bind (S1 := T) ?_ (fun r => Fits.pure) (by decide +kernel)
  refine Fits.alt_cons (Fits.map ?_) (Fits.alt_one (Fits.map ?_)) (he := Errs.map _ _ (h := Errs.bind _ _)) (by decide +kernel)
  · refine Fits.parens ?_
    refine Fits.list (S1 := S0) (ListOk.mk' (by decide +kernel) (by decide +kernel) (by decide +kernel)) ?_
    exact Fits.bind (S1 := b!" ") (fits_astring (by decide)) (fun n => Fits.word inferInstance
      (Fits.bind (S1 := S0) fits_imapValue (fun l => Fits.pure) (by decide +kernel))) (by decide +kernel)
  · exact Fits.list (S1 := S0) (ListOk.mk' (by decide +kernel) (by decide +kernel) (by decide +kernel)) (fits_astring (by decide))

theorem fits_namespaceResponse : Fits namespaceResponse (do
    lit b!"NAMESPACE "; let p ← Grammar.Server.namespaces; Grammar.sp; let o ← Grammar.Server.namespaces; Grammar.sp; let s ← Grammar.Server.namespaces
    return .namespace_ p o s) T :=
  Fits.word inferInstance (Fits.bind (S1 := b!" ") fits_namespaces (fun p => Fits.word inferInstance (Fits.bind (S1 := b!" ") fits_namespaces
    (fun o => Fits.word inferInstance (Fits.bind (S1 := T) fits_namespaces (fun s => Fits.pure) (by decide +kernel))) (by decide +kernel))) (by decide +kernel))

theorem fits_quotaroot : Fits quotarootResponse (do
    lit b!"QUOTAROOT "; let m ← Grammar.mailbox; let l ← Star (do Grammar.sp; Grammar.astring); return .quotaRoot m l) T :=
  Fits.word inferInstance (Fits.bind (S1 := b!" \r\n") (fits_mailbox (by decide)) (fun m => Fits.many0 (S1 := b!" \r\n")
    (Fits.word inferInstance (fits_astring (by decide))) (fun l => Fits.pure) (by decide +kernel) (by decide +kernel) (by decide +kernel)) (by decide +kernel))

theorem fits_quota : Fits quotaResponse (do
    lit b!"QUOTA "; let r ← Grammar.astring; Grammar.sp; let l ← Grammar.parens (sepBy1 Grammar.sp Grammar.Server.quotaResource); return .quota r l) T := by
  unfold quotaResponse
  simp only [Grammar.parens, bind_assoc, pure_bind]
  refine Fits.word inferInstance (Fits.bind (S1 := b!" ") (fits_astring (by decide)) (fun r => ?_) (by decide +kernel))
  refine Fits.word_split inferInstance ?_
  exact Fits.sepBy1 (S1 := b!" )") (ListOk.mk' (by decide +kernel) (by decide +kernel) (by decide +kernel)) fits_quotaResource
    fun l => Fits.word inferInstance Fits.pure

/-- `number SP "EXISTS"`. -/
def gExists : G Data := do let n ← Grammar.number; lit b!" EXISTS"; return .exists_ n
/-- `number SP "RECENT"`. -/
def gRecent : G Data := do let n ← Grammar.number; lit b!" RECENT"; return .recent n
/-- `"QUOTAROOT" SP mailbox *(SP quota-root-name)`. -/
def gQuotaroot : G Data := do lit b!"QUOTAROOT "; let m ← Grammar.mailbox; let l ← Star (do Grammar.sp; Grammar.astring); return .quotaRoot m l
/-- `"QUOTA" SP quota-root-name SP quota-list`. -/
def gQuota : G Data := do
  lit b!"QUOTA "; let r ← Grammar.astring; Grammar.sp; let l ← Grammar.parens (sepBy1 Grammar.sp Grammar.Server.quotaResource); return .quota r l

instance : Begs0 gExists (allOf isDigit) := Begs0.bind _ _
instance : Begs0 gRecent (allOf isDigit) := Begs0.bind _ _
instance : Begs0 gQuotaroot [b!"QUOTAROOT "] := Begs0.bind _ _
instance : Begs0 gQuota [b!"QUOTA "] := Begs0.bind _ _
instance : Errs searchData [b!"SEARCH"] := Errs.bind _ _
instance : Errs sortData [b!"SORT"] := Errs.bind _ _
instance : Errs threadData [b!"THREAD"] := Errs.bind _ _
instance : Errs statusData [b!"STATUS "] := Errs.bind _ _
instance : Errs metadataResp [b!"METADATA"] := Errs.bind _ _
instance : Errs namespaceResponse [b!"NAMESPACE "] := Errs.bind _ _
instance : Errs quotarootResponse [b!"QUOTAROOT "] := Errs.bind _ _
instance : Errs quotaResponse [b!"QUOTA "] := Errs.bind _ _

/-- `mailbox-data`. -/
def gMailboxData : G Data := choice [
  .flags <$> do lit b!"FLAGS "; Grammar.flagList,
  (fun x => .list x.1 x.2.1 x.2.2) <$> do lit b!"LIST "; Grammar.Server.mailboxList,
  (fun x => .lsub x.1 x.2.1 x.2.2) <$> do lit b!"LSUB "; Grammar.Server.mailboxList,
  do lit b!"SEARCH"; let (l, m) ← Grammar.Server.numbers; Grammar.Server.spIf q.trailingSpaceSearch; return .search l m,
  do lit b!"SORT"; let (l, m) ← Grammar.Server.numbers; return .sort l m,
  .thread <$> do lit b!"THREAD"; optD [] (do Grammar.sp; plus (Grammar.Server.threadList 8)),
  do
    lit b!"STATUS "; let m ← Grammar.mailbox; Grammar.sp; let l ← Grammar.parens (sepBy0 Grammar.sp Grammar.Server.statusAttVal)
    Grammar.Server.spIf q.trailingSpaceStatus; return .status m l,
  onlyIf q.extMetadata do
    lit b!"METADATA "
    let m ← Grammar.mailbox
    Grammar.sp
    let r ← choice [.withValues <$> Grammar.parens (sepBy1 Grammar.sp (do let e ← Grammar.astring; Grammar.sp; let v ← Grammar.imapValue; return ⟨e, v⟩)),
      .withoutValues <$> sepBy1 Grammar.sp Grammar.astring]
    return .metadata m r,
  onlyIf q.extNamespace do
    lit b!"NAMESPACE "; let p ← Grammar.Server.namespaces; Grammar.sp; let o ← Grammar.Server.namespaces; Grammar.sp; let s ← Grammar.Server.namespaces
    return .namespace_ p o s,
  gExists, gRecent, gQuotaroot, gQuota]

theorem fits_mailboxData : Fits mailboxData gMailboxData T := by
  unfold mailboxData gMailboxData
  refine Fits.alt_cons (Fits.map (Fits.word inferInstance fits_flagList)) ?_ (by decide +kernel)
  refine Fits.alt_cons (Fits.map (Fits.word inferInstance fits_mailboxList)) ?_ (by decide +kernel)
  refine Fits.alt_cons (Fits.map (Fits.word inferInstance fits_mailboxList)) ?_ (by decide +kernel)
  refine Fits.alt_cons fits_searchData ?_ (by decide +kernel)
  refine Fits.alt_cons fits_sortData ?_ (by decide +kernel)
  refine Fits.alt_cons (Fits.map fits_threadData) ?_ (by decide +kernel)
  refine Fits.alt_cons fits_statusData ?_ (by decide +kernel)
  refine Fits.alt_cons (Fits.gate fits_metadataResp) ?_ (by decide +kernel)
  refine Fits.alt_cons (Fits.gate fits_namespaceResponse) ?_ (by decide +kernel)
  have hnum : ∀ {K : Bytes} {F : Nat → Data}, Fits (F <$> (do let n ← number; tagNC (32 :: K); return n)) (do let n ← Grammar.number; lit (32 :: K); return F n) T := by
    intro K F
    simp only [map_eq_pure_bind, bind_assoc, pure_bind]
    exact Fits.bind (S1 := b!" ") (B := [32 :: K]) (fits_number (by decide)) (fun n => Fits.word inferInstance Fits.pure) (hk := fun _ => Begs.of _ (Begs0.bind _ _)) (by simp [headsIn]; decide)
  refine Fits.alt_cons' hnum ?_ ?_
  · refine Fits.alt_cons hnum ?_ (he := Errs.map _ _ (h := Errs.bind _ _)) (by decide +kernel)
    exact Fits.alt_cons fits_quotaroot (Fits.alt_one fits_quota) (by decide +kernel)
  · intro w v r h hr
    have hd : Begs0 (choice [gQuotaroot, gQuota]) ([b!"QUOTAROOT "] ++ ([b!"QUOTA "] ++ [])) := inferInstance
    simp only [choice_cons (g := gRecent)] at h
    rcases h with ⟨w1, _, n, rfl, h1, w2, _, _, rfl, h2, rfl, rfl⟩ | h
    · rw [List.append_nil, List.append_assoc]
      have hb : Begins b!" RECENT" (w2 ++ r) := ⟨w2, r, rfl, h2⟩
      exact numWord_error h1 (diverges_of_begins hb (by decide)) (starts_of_begins (B := [b!" RECENT"]) (by decide) (List.mem_cons_self ..) hb)
    · exact errs0 (e := Errs.map _ _ (h := Errs.bind _ _)) (by decide +kernel) r h

/-! ### Data of messages -/

/-- `nz-number SP ("EXPUNGE" / ("FETCH" SP msg-att))`. -/
def gNumbered : G Data := do
  let n ← Grammar.nzNumber
  Grammar.sp
  choice [is b!"EXPUNGE" (.expunge n), .fetch n <$> (do lit b!"FETCH "; Grammar.Server.msgAtt)]

theorem gNumbered_iff (w : Bytes) (v : Data) : gNumbered w v ↔
    (do let n ← Grammar.nzNumber; lit b!" EXPUNGE"; return Data.expunge n : G Data) w v ∨
    (do let n ← Grammar.nzNumber; lit b!" FETCH "; let l ← Grammar.Server.msgAtt; return .fetch n l : G Data) w v := by
  have e1 : ∀ n, (do Grammar.sp; is b!"EXPUNGE" (Data.expunge n) : G Data) = (do lit b!" EXPUNGE"; return Data.expunge n) := by
    intro n
    rw [is_eq]
    exact lit_lit
  have e2 : ∀ n, (do Grammar.sp; .fetch n <$> (do lit b!"FETCH "; Grammar.Server.msgAtt) : G Data) = (do lit b!" FETCH "; let l ← Grammar.Server.msgAtt; return .fetch n l) := by
    intro n
    simp only [map_eq_pure_bind, bind_assoc]
    exact lit_lit
  simp only [← e1, ← e2]
  constructor
  · rintro ⟨w1, _, n, rfl, h1, w2, w3, _, rfl, h2, h3⟩
    rcases (choice_two ..).1 h3 with h3 | h3
    · exact .inl ⟨w1, _, n, rfl, h1, w2, w3, (), rfl, h2, h3⟩
    · exact .inr ⟨w1, _, n, rfl, h1, w2, w3, (), rfl, h2, h3⟩
  · rintro (⟨w1, _, n, rfl, h1, w2, w3, _, rfl, h2, h3⟩ | ⟨w1, _, n, rfl, h1, w2, w3, _, rfl, h2, h3⟩)
    · exact ⟨w1, _, n, rfl, h1, w2, w3, (), rfl, h2, (choice_two ..).2 (.inl h3)⟩
    · exact ⟨w1, _, n, rfl, h1, w2, w3, (), rfl, h2, (choice_two ..).2 (.inr h3)⟩

/-- `"VANISHED" [SP "(EARLIER)"] SP known-uids`. -/
def gVanished : G Data := onlyIf q.extCondstoreQresync do
  lit b!"VANISHED"; let e ← optD false (is b!" (EARLIER)" true); Grammar.sp; let s ← Grammar.sequenceSet; return .vanished e s

instance : Begs0 gNumbered (allOf isDigit) := Begs0.bind _ _
instance : Begs0 gVanished [b!"VANISHED"] := Begs0.onlyIf _ _ (h := Begs0.bind _ _)

theorem fits_vanished : Fits (gate q.extCondstoreQresync vanishedData) gVanished T := by
  refine Fits.gate (Fits.word inferInstance (Fits.optD_is inferInstance ?_ ?_ (by decide +kernel)))
  all_goals exact Fits.word inferInstance (Fits.bind (S1 := S0) fits_sequenceSet (fun s => Fits.pure) (by decide +kernel))

theorem fits_messageData : Fits messageData (choice [gNumbered, gVanished]) T := by
  refine Fits.alt_cons ?_ (Fits.alt_one fits_vanished) (he := Errs.bind _ _) (by decide +kernel)
  refine Fits.bind (S1 := b!" ") (fits_nzNumber (by decide)) (fun n => Fits.word inferInstance ?_) (by decide +kernel)
  exact Fits.alt_cons (Fits.is inferInstance) (Fits.alt_one (Fits.map (Fits.word inferInstance fits_msgAtt))) (by decide +kernel)

instance : Errs messageData (allOf isDigit ++ [b!"VANISHED"]) := by
  have h1 : Errs (do let n ← nzNumber; sp; messageDataTail n) (allOf isDigit) := Errs.bind _ _
  have h2 : Errs vanishedData [b!"VANISHED"] := Errs.bind _ _
  unfold messageData
  infer_instance

/-- Data of mailboxes do not begin like data of messages. -/
theorem mailboxData_error {w r : Bytes} {v : Data} (h : gNumbered w v) : mailboxData (w ++ r) = .error := by
  obtain ⟨k, hk, hb⟩ := (inferInstance : Begs0 gNumbered (allOf isDigit)).out h
  have hw : ∀ {p : P Data} {E : List Bytes} [e : Errs p E], apart E (allOf isDigit) = true → p (w ++ r) = .error := fun he =>
    errs0 he r h
  obtain ⟨w1, _, n, rfl, ⟨h1, -⟩, w2, w3, _, rfl, h2, h3⟩ := h
  obtain rfl := symbol_eq (k := b!" ") (by decide) h2
  have h4 : Begins b!"EXPUNGE" w3 ∨ Begins b!"FETCH " w3 := by
    rcases (choice_two ..).1 h3 with h3 | h3
    · exact .inl ⟨w3, [], by simp, h3.1⟩
    · obtain ⟨k, hk, hb⟩ := (Begs0.map _ _ : Begs0 (Data.fetch n <$> (do lit b!"FETCH "; Grammar.Server.msgAtt)) [b!"FETCH "]).out h3
      simp only [List.mem_singleton] at hk
      subst hk
      exact .inr hb
  have hd : diverges b!" EXISTS" (b!" " ++ (w3 ++ r)) = true ∧ diverges b!" RECENT" (b!" " ++ (w3 ++ r)) = true := by
    rcases h4 with h4 | h4
    all_goals
      have h5 := Begins.cons (k' := b!" ") (h4.append r) (w := b!" ") rfl
      exact ⟨diverges_of_begins h5 (by decide), diverges_of_begins h5 (by decide)⟩
  refine alt_error fun p hp => ?_
  simp only [List.mem_cons, List.not_mem_nil, or_false] at hp
  have e : w1 ++ (b!" " ++ w3) ++ r = w1 ++ (b!" " ++ (w3 ++ r)) := by simp
  rcases hp with rfl | rfl | rfl | rfl | rfl | rfl | rfl | rfl | rfl | rfl | rfl | rfl | rfl
  · exact hw (e := Errs.map _ _ (h := Errs.bind _ _)) (by decide +kernel)
  · exact hw (e := Errs.map _ _ (h := Errs.bind _ _)) (by decide +kernel)
  · exact hw (e := Errs.map _ _ (h := Errs.bind _ _)) (by decide +kernel)
  · exact hw (by decide +kernel)
  · exact hw (by decide +kernel)
  · exact hw (by decide +kernel)
  · exact hw (by decide +kernel)
  · exact hw (by decide +kernel)
  · exact hw (by decide +kernel)
  · rw [e]
    exact numWord_error h1 hd.1 ⟨32, _, rfl, by decide⟩
  · rw [e]
    exact numWord_error h1 hd.2 ⟨32, _, rfl, by decide⟩
  · exact hw (by decide +kernel)
  · exact hw (by decide +kernel)

/-! ### Responses -/

/-- `"CAPABILITY" ...`. -/
def gCapability : G Data := .capability <$> Grammar.Server.capabilityData
/-- `"ENABLED" *(SP capability)`. -/
def gEnabled : G Data := .enabled <$> do lit b!"ENABLED"; Star (do Grammar.sp; named Spec.enableNames .other)
/-- `"ID" SP id-params-list`. -/
def gId : G Data := onlyIf q.extId (.id_ <$> do lit b!"ID "; Grammar.idParams)

instance : Begs0 gCapability [b!"CAPABILITY "] := Begs0.map _ _ (h := Begs0.bind _ _)
instance : Begs0 gEnabled [b!"ENABLED"] := Begs0.map _ _ (h := Begs0.bind _ _)
instance : Begs0 gId [b!"ID "] := Begs0.onlyIf _ _ (h := Begs0.map _ _ (h := Begs0.bind _ _))

theorem fits_enabled : Fits enableData gEnabled T := by
  have h := Fits.many0 (S1 := b!" \r\n") (S := T) (f := fun l => (Pure.pure (Data.enabled l) : P Data)) (k := fun l => Pure.pure (Data.enabled l))
    (p := do sp; capabilityEnable) (g := do Grammar.sp; named Spec.enableNames .other)
    (Fits.word inferInstance (fits_named C28_enable (by decide)))
    (fun l => Fits.pure) (by decide +kernel) (by decide +kernel) (by decide +kernel)
  have := Fits.word (p := tagNC b!"ENABLED") (k := b!"ENABLED") inferInstance (f := fun _ => _) (h := fun _ => _) h
  unfold gEnabled enableData
  simpa only [map_eq_pure_bind, bind_assoc] using this

/-- How data of mailboxes begin. -/
def mailboxHeads : List Bytes := [b!"FLAGS ", b!"LIST ", b!"LSUB ", b!"SEARCH", b!"SORT", b!"THREAD", b!"STATUS ", b!"METADATA", b!"NAMESPACE ",
  b!"QUOTAROOT ", b!"QUOTA "] ++ allOf isDigit

instance : Errs mailboxData mailboxHeads := by
  have h1 : ∀ {k : Bytes} {f : Nat → Data}, Errs (f <$> (do let n ← number; tagNC k; return n)) (allOf isDigit) := Errs.map _ _ (h := Errs.bind _ _)
  have h2 : ∀ {γ : Type} {p : P γ} {f : γ → Data}, Errs (f <$> (do tagNC b!"LIST "; p)) [b!"LIST "] := Errs.map _ _ (h := Errs.bind _ _)
  have h3 : ∀ {γ : Type} {p : P γ} {f : γ → Data}, Errs (f <$> (do tagNC b!"LSUB "; p)) [b!"LSUB "] := Errs.map _ _ (h := Errs.bind _ _)
  have h4 : ∀ {γ : Type} {p : P γ} {f : γ → Data}, Errs (f <$> (do tagNC b!"FLAGS "; p)) [b!"FLAGS "] := Errs.map _ _ (h := Errs.bind _ _)
  unfold mailboxData
  exact Errs.mono inferInstance (by decide +kernel)

/-- The data, in the order of the parser. -/
def gData : List (G Response) := [.data <$> gMailboxData, .data <$> choice [gNumbered, gVanished], .data <$> gCapability, .data <$> gEnabled, .data <$> gId]

theorem fits_data : Fits (alt [Response.data <$> mailboxData, .data <$> messageData, (fun l => .data (.capability l)) <$> capabilityData, .data <$> enableData,
    gate q.extId ((fun p => .data (.id_ p)) <$> idResponse)]) (choice gData) T := by
  have hcap : Fits ((fun l => Response.data (.capability l)) <$> capabilityData) (.data <$> gCapability) T :=
    (Fits.map (f := fun l => Response.data (.capability l)) (fits_capabilityData.mono (by decide))).iff (by simp [gCapability])
  have hid : Fits (gate q.extId ((fun p => Response.data (.id_ p)) <$> idResponse)) (.data <$> gId) T := by
    refine (Fits.gate (Fits.map (f := fun p => Response.data (.id_ p)) (Fits.word (h := fun _ => Grammar.idParams) inferInstance fits_idParams))).iff ?_
    intro w v
    constructor
    · rintro ⟨_, ⟨hb, a, h, rfl⟩, rfl⟩
      exact ⟨hb, a, h, rfl⟩
    · rintro ⟨hb, a, h, rfl⟩
      exact ⟨_, ⟨hb, a, h, rfl⟩, rfl⟩
  refine Fits.alt_cons' (Fits.map fits_mailboxData) ?_ ?_
  · refine Fits.alt_cons (Fits.map fits_messageData) ?_ (by decide +kernel)
    refine Fits.alt_cons hcap ?_ (he := Errs.map _ _ (h := Errs.bind _ _)) (by decide +kernel)
    refine Fits.alt_cons (Fits.map fits_enabled) ?_ (he := Errs.map _ _ (h := Errs.bind _ _)) (by decide +kernel)
    exact Fits.alt_one hid
  · intro w v r h hr
    rw [P.map_apply]
    have key : mailboxData (w ++ r) = .error := by
      rcases (choice_cons ..).1 h with ⟨a, h, -⟩ | h
      · rcases (choice_two ..).1 h with h | h
        · exact mailboxData_error h
        · exact errs0 (by decide +kernel) r h
      · exact errs0 (by decide +kernel) r h
    rw [key]
    rfl

theorem data_iff (w : Bytes) (v : Response) : (Response.data <$> Grammar.Server.data) w v ↔ choice gData w v := by
  have h1 : ∀ w v, Grammar.Server.data w v ↔ choice [gMailboxData, choice [gNumbered, gVanished], gCapability, gEnabled, gId] w v := by
    intro w v
    rw [choice_cons, choice_cons, choice_two, gNumbered_iff]
    unfold Grammar.Server.data gMailboxData gExists gRecent gQuotaroot gQuota gVanished gCapability gEnabled gId
    simp only [choice, List.mem_cons, List.not_mem_nil, or_false, exists_eq_or_imp, exists_eq_left, or_assoc]
  constructor
  · rintro ⟨a, h, rfl⟩
    obtain ⟨g, hg, h⟩ := (h1 ..).1 h
    exact ⟨.data <$> g, List.mem_map.2 ⟨g, hg, rfl⟩, a, h, rfl⟩
  · rintro ⟨g, hg, h⟩
    obtain ⟨g', hg', rfl⟩ := (List.mem_map (f := fun g => Response.data <$> g) (l := [gMailboxData, choice [gNumbered, gVanished], gCapability, gEnabled, gId])).1 hg
    obtain ⟨a, h, rfl⟩ := h
    exact ⟨a, (h1 ..).2 ⟨g', hg', h⟩, rfl⟩

/-- How data begin. -/
def dataHeads : List Bytes := mailboxHeads ++ allOf isDigit ++ [b!"METADATA ", b!"VANISHED", b!"CAPABILITY ", b!"ENABLED", b!"ID "]

instance : Begs0 gMailboxData (mailboxHeads ++ [b!"METADATA "]) := by
  have h : ∀ {γ : Type} {g : G γ} {k : Bytes} {f : γ → Data}, Begs0 (f <$> (do lit k; g)) [k] := Begs0.map _ _ (h := Begs0.bind _ _)
  have h' : ∀ {g : G Data} {k : Bytes}, Begs0 (do lit k; g) [k] := Begs0.bind _ _
  unfold gMailboxData
  exact Begs0.mono inferInstance (by decide +kernel)

instance : Begs0 (choice gData) dataHeads := by
  unfold gData
  exact Begs0.mono inferInstance (by decide +kernel)

theorem fits_responseDataInner : FitsLine responseDataInner (choice [
    do let k ← Grammar.Server.condition; let x ← Grammar.Server.respText; return .status (.untagged k x.1 x.2),
    do lit b!"BYE "; let x ← Grammar.Server.respText; return .status (.bye x.1 x.2),
    .data <$> Grammar.Server.data]) := by
  have h1 := fits_respCondState.map (f := fun x => Response.status (.untagged x.1 x.2.1 x.2.2))
  have h2 := fits_respCondBye.map (f := fun x => Response.status (.bye x.1 x.2))
  have hb : Begs0 (choice (((fun x => Response.status (.bye x.1 x.2)) <$> (do lit b!"BYE "; Grammar.Server.respText)) :: gData)) ([b!"BYE "] ++ dataHeads) := ⟨by
    intro w v h
    rcases (choice_cons ..).1 h with h | h
    · obtain ⟨k, hk, h⟩ := (Begs0.map _ _ (h := Begs0.bind _ _) : Begs0 ((fun x => Response.status (.bye x.1 x.2)) <$> (do lit b!"BYE "; Grammar.Server.respText)) [b!"BYE "]).out h
      exact ⟨k, List.mem_append_left _ hk, h⟩
    · obtain ⟨k, hk, h⟩ := (inferInstance : Begs0 (choice gData) dataHeads).out h
      exact ⟨k, List.mem_append_right _ hk, h⟩⟩
  have h := FitsLine.alt_cons (he := Errs.map _ _ (h := Errs.bind _ _)) (hb := Begs.of _ hb) h1
    (FitsLine.alt_cons (hb := Begs.of _ inferInstance) h2 fits_data.toLine (by decide +kernel)) (by decide +kernel)
  refine h.iff fun w v => ?_
  rw [choice_cons, choice_cons, choice_cons, choice_cons, choice_cons, data_iff]
  simp only [map_eq_pure_bind, bind_assoc, pure_bind, choice_nil, or_false]

theorem fits_responseData : FitsAny responseData Grammar.Server.responseData := by
  have h := fits_responseDataInner.crlf (f := id)
  exact FitsAny.word (p := tag b!"* ") (k := b!"* ") (f := fun _ => _) (h := fun _ => _) (word_tag (by decide)) h

theorem crlf_error {b : UInt8} {x : Bytes} (h : b ≠ 13 ∧ b ≠ 10) : Imap.crlf (b :: x) = .error := by
  unfold Imap.crlf
  split
  · have h1 : char 13 (b :: x) = .error := by simp [Imap.char, h.1]
    rw [P.bind_apply, opt_error h1, Res.andThen_ok]
    simp [Imap.char, h.2]
  · simp [Imap.tag, Ne.symm h.1]

/-- A bare plus sign. -/
def gEmpty : G ContinueReq := do lit b!"+"; Grammar.crlf; return .basic none b!"..."

omit q in
theorem fits_emptyContinueReq [Quirks] : FitsAny emptyContinueReq gEmpty := by
  refine FitsAny.word (word_tag (by decide)) ⟨?_, ?_⟩
  · intro x r v e
    simp only [P.bind_apply, Res.andThen_eq_ok] at e
    obtain ⟨i, _, e1, e2⟩ := e
    cases e2
    obtain ⟨w, rfl, h⟩ := fits_crlf.sound e1
    exact ⟨w, rfl, w, [], (), by simp, h, rfl, rfl⟩
  · rintro w v r ⟨w1, _, _, rfl, h, rfl, rfl⟩
    rw [List.append_nil, P.bind_apply, fits_crlf.complete r h]
    rfl

/-- A plus sign and something else. -/
def gContinue : G ContinueReq := choice [
  .base64 <$> (do lit b!"+ "; let d ← Grammar.base64; Grammar.crlf; return d),
  do lit b!"+ "; let x ← Grammar.Server.except Grammar.Server.respText (fun w => ∃ d, Grammar.base64 w d); Grammar.crlf; return .basic x.1 x.2]

theorem continueReq_iff (w : Bytes) (v : ContinueReq) :
    Grammar.Server.continueReq w v ↔ gContinue w v ∨ (q.emptyContinueReq = true ∧ gEmpty w v) := by
  have h : ∀ w v, (do lit b!"+"; Grammar.crlf; if q.emptyContinueReq then return .basic none b!"..." else choice [] : G ContinueReq) w v ↔
      (q.emptyContinueReq = true ∧ gEmpty w v) := by
    intro w v
    cases hq : q.emptyContinueReq with
    | true => simp [gEmpty]
    | false =>
      simp only [Bool.false_eq_true, if_false, false_and, iff_false]
      rintro ⟨_, _, _, -, -, _, _, _, -, -, h⟩
      exact (choice_nil ..).1 h
  rw [Grammar.Server.continueReq, choice_cons, choice_cons, choice_cons, gContinue, choice_cons, choice_cons, h]
  simp only [choice_nil, or_false, or_assoc]

instance : Begs0 gContinue [b!"+ "] := by
  have h : ∀ {γ : Type} {g : G γ} {k : Bytes} {f : γ → ContinueReq}, Begs0 (f <$> (do lit k; g)) [k] := Begs0.map _ _ (h := Begs0.bind _ _)
  have h' : ∀ {g : G ContinueReq} {k : Bytes}, Begs0 (do lit k; g) [k] := Begs0.bind _ _
  unfold gContinue
  exact Begs0.mono inferInstance (by decide +kernel)

instance : Begs0 Grammar.Server.responseData [b!"* "] := Begs0.bind _ _

instance : Errs continueReq [b!"+ "] := by
  have h : Errs continueInner [b!"+ "] := Errs.bind _ _
  unfold continueReq
  infer_instance

instance : Errs responseData [b!"* "] := Errs.bind _ _
instance : Errs emptyContinueReq [b!"+"] := Errs.bind _ _

/-- The fatal response has been recognised before. -/
theorem fits_responseDone : FitsAny (alt [Response.continue_ <$> continueReq, responseData, .status <$> responseDone])
    (choice [.continue_ <$> gContinue, Grammar.Server.responseData, .status <$> Grammar.Server.responseTagged]) := by
  refine ⟨?_, ?_⟩
  · intro x r v e
    obtain ⟨p, hp, e⟩ := exists_of_alt e
    simp only [List.mem_cons, List.not_mem_nil, or_false] at hp
    rcases hp with rfl | rfl | rfl
    · obtain ⟨w, rfl, h⟩ := (FitsAny.map fits_continueReq).sound e
      exact ⟨w, rfl, _, List.mem_cons_self .., h⟩
    · obtain ⟨w, rfl, h⟩ := fits_responseData.sound e
      exact ⟨w, rfl, _, List.mem_cons_of_mem _ (List.mem_cons_self ..), h⟩
    · obtain ⟨i, s, e1, e2⟩ := Res.andThen_eq_ok.1 e
      cases e2
      obtain ⟨p, hp, e⟩ := exists_of_alt e1
      simp only [List.mem_cons, List.not_mem_nil, or_false] at hp
      rcases hp with rfl | rfl
      · obtain ⟨w, rfl, h⟩ := fits_responseTagged.sound e
        exact ⟨w, rfl, _, List.mem_cons_of_mem _ (List.mem_cons_of_mem _ (List.mem_cons_self ..)), s, h, rfl⟩
      · have hf := FitsAny.word (p := tag b!"* ") (k := b!"* ") (f := fun _ => _) (h := fun _ => _) (word_tag (by decide))
          (fits_respCondBye.crlf (f := fun x => Status.bye x.1 x.2))
        obtain ⟨w, rfl, w1, _, _, rfl, h1, w2, w3, x, rfl, h2, h3⟩ := hf.sound e
        obtain ⟨w4, _, _, rfl, h4, rfl, rfl⟩ := h3
        refine ⟨_, rfl, _, List.mem_cons_of_mem _ (List.mem_cons_self ..), w1, _, (), rfl, h1, w2, _, .status (.bye x.1 x.2), rfl, ?_, w4, [], (), rfl, h4, rfl, rfl⟩
        refine ⟨_, List.mem_cons_of_mem _ (List.mem_cons_self ..), ?_⟩
        obtain ⟨w5, w6, _, rfl, h5, h6⟩ := h2
        exact ⟨w5, w6, (), rfl, h5, w6, [], x, by simp, h6, rfl, rfl⟩
  · rintro w v r ⟨g, hg, h⟩
    simp only [List.mem_cons, List.not_mem_nil, or_false] at hg
    rcases hg with rfl | rfl | rfl
    · rw [alt_cons, orElse_ok ((FitsAny.map fits_continueReq).complete r h)]
    · rw [alt_cons, orElse_error (errs0 (by decide +kernel) r h), alt_cons, orElse_ok (fits_responseData.complete r h)]
    · rw [alt_cons, orElse_error (errs0 (by decide +kernel) r h), alt_cons, orElse_error (errs0 (by decide +kernel) r h), alt_cons]
      obtain ⟨s, h, rfl⟩ := h
      refine orElse_ok ?_
      rw [P.map_apply, responseDone, alt_cons, orElse_ok (fits_responseTagged.complete r h)]
      rfl

theorem fits_response : FitsAny response Grammar.Server.response := by
  have hi : ∀ w v, Grammar.Server.response w v ↔ (q.emptyContinueReq = true ∧ (Response.continue_ <$> gEmpty) w v) ∨
      choice [.continue_ <$> gContinue, Grammar.Server.responseData, .status <$> Grammar.Server.responseTagged] w v := by
    intro w v
    rw [Grammar.Server.response, choice_cons, choice_cons (g := Response.continue_ <$> gContinue), ← or_assoc]
    refine or_congr_left ?_
    constructor
    · rintro ⟨a, h, rfl⟩
      rcases (continueReq_iff ..).1 h with h | ⟨h1, h2⟩
      · exact .inr ⟨a, h, rfl⟩
      · exact .inl ⟨h1, a, h2, rfl⟩
    · rintro (⟨h1, a, h, rfl⟩ | ⟨a, h, rfl⟩)
      · exact ⟨a, (continueReq_iff ..).2 (.inr ⟨h1, h⟩), rfl⟩
      · exact ⟨a, (continueReq_iff ..).2 (.inl h), rfl⟩
  unfold response
  cases hq : q.emptyContinueReq with
  | false =>
    refine fits_responseDone.iff fun w v => (hi w v).trans ?_
    simp [hq]
  | true =>
    have hE := (FitsAny.map (f := Response.continue_) fits_emptyContinueReq)
    refine (FitsAny.alt_cons hE fits_responseDone ?_).iff fun w v => (hi w v).trans ?_
    · intro w v r h
      rw [P.map_apply]
      have key : emptyContinueReq (w ++ r) = .error := by
        rcases (choice_cons ..).1 h with ⟨a, h, -⟩ | h
        · obtain ⟨k, hk, w1, w2, rfl, h1⟩ := (inferInstance : Begs0 gContinue [b!"+ "]).out h
          simp only [List.mem_singleton] at hk
          subst hk
          obtain rfl := symbol_eq (by decide) h1
          have e : emptyContinueReq (b!"+ " ++ w2 ++ r) = (Imap.crlf (32 :: (w2 ++ r))).andThen fun _ i => .ok i (.basic none b!"...") := rfl
          rw [e, crlf_error (by decide)]
          rfl
        · exact errs0 (by decide +kernel) r h
      rw [key]
      rfl
    · rw [choice_cons (g := Response.continue_ <$> gEmpty)]
      simp [hq]

end Imap.Gr
