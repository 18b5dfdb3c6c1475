import Verif.ResponseRT

/-!
# Round trip of data responses, and of all responses
-/

set_option maxRecDepth 10000

namespace Imap

variable [Quirks]

/-! ### Items of STATUS and FETCH responses -/

theorem rt_statusAttVal {a : StatusDataItem} {r : Bytes} (h : a.valid = true) (hr : Stops isDigit r = true) :
    statusAttVal (bytes a.enc ++ r) = .ok r a := by
  rw [statusAttVal]
  cases a with
  | messages n =>
    alt_at 0
    simp [StatusDataItem.enc, tagNC, rt_number (of_decide_eq_true h) hr]
  | recent n =>
    alt_at 1
    simp [StatusDataItem.enc, tagNC, rt_number (of_decide_eq_true h) hr]
  | uidNext n =>
    have := nonZero_of_wf h
    alt_at 2
    simp [StatusDataItem.enc, tagNC, rt_nzNumber this.1 this.2 hr]
  | uidValidity n =>
    have := nonZero_of_wf h
    alt_at 3
    simp [StatusDataItem.enc, tagNC, rt_nzNumber this.1 this.2 hr]
  | unseen n =>
    alt_at 4
    simp [StatusDataItem.enc, tagNC, rt_number (of_decide_eq_true h) hr]
  | deletedStorage n =>
    alt_at 5
    simp [StatusDataItem.enc, tagNC, rt_number64 (of_decide_eq_true h) hr]
  | deleted n =>
    alt_at 6
    simp [StatusDataItem.enc, tagNC, rt_number (of_decide_eq_true h) hr]
  | highestModSeq n =>
    simp only [StatusDataItem.valid, Bool.and_eq_true, decide_eq_true_eq] at h
    alt_at 7
    rw [gate_on h.1]
    simp [StatusDataItem.enc, tagNC, modSequenceValzer, rt_number64 h.2 hr]

omit [Quirks] in
theorem rt_flagFetchList {l : List FlagFetch} {r : Bytes} (h : l.all FlagFetch.valid = true) :
    flagFetchList (40 :: (bytes (join b!" " (l.map FlagFetch.enc)) ++ 41 :: r)) = .ok r l := by
  cases l with
  | nil => rfl
  | cons a l =>
    have := sepList1_sp (p := flagFetch) (e := FlagFetch.enc) (g := id) (F := fun r => Stops isAtomChar r = true)
      (rest := 41 :: r) (l := a :: l) (by simp) (fun v hv r hr => rt_flagFetch (List.all_eq_true.1 h v hv) hr) (fun _ => rfl) rfl rfl
    simp only [flagFetchList, P.bind_apply, tag, Res.andThen_ok, if_true]
    rw [opt_ok this]
    simp [tag]

omit [Quirks] in
theorem rt_origin {o : Option Nat} {r : Bytes} (h : isOptU32 o = true) :
    opt (do tag b!"<"; let n ← number; tag b!">"; return n) (bytes (encOrigin o) ++ 32 :: r) = .ok (32 :: r) o := by
  cases o with
  | none => rfl
  | some n =>
    have := rt_number (r := 62 :: 32 :: r) (of_decide_eq_true h) rfl
    exact opt_ok (by simp [encOrigin, tag, this])

theorem rt_msgItem {a : MessageDataItem} {r : Bytes} (h : a.valid = true) (hm : a.noModSeq = true) (hr : Stops isDigit r = true) :
    alt [msgAttDynamic, msgAttStatic] (bytes a.enc ++ r) = .ok r a := by
  have hr0 := Stops.ne_nil hr
  cases a with
  | flags l =>
    alt_at 0
    rw [msgAttDynamic]
    alt_at 0
    simp [MessageDataItem.enc, tagNC, rt_flagFetchList (r := r) h]
  | modSeq n => simp [MessageDataItem.noModSeq] at hm
  | envelope e =>
    alt_at 1
    rw [msgAttStatic]
    alt_at 0
    simp [MessageDataItem.enc, tagNC, rt_envelope (r := r) h]
  | internalDate t =>
    alt_at 1
    rw [msgAttStatic]
    alt_at 1
    simp [MessageDataItem.enc, tagNC, rt_dateTime (r := r) h]
  | rfc822Header s =>
    alt_at 1
    rw [msgAttStatic]
    alt_at 2
    simp [MessageDataItem.enc, tagNC, rt_nstring (r := r) h hr0]
  | rfc822Text s =>
    alt_at 1
    rw [msgAttStatic]
    alt_at 3
    simp [MessageDataItem.enc, tagNC, rt_nstring (r := r) h hr0]
  | rfc822Size s =>
    alt_at 1
    rw [msgAttStatic]
    alt_at 4
    simp [MessageDataItem.enc, tagNC, rt_number (of_decide_eq_true h) hr]
  | rfc822 s =>
    alt_at 1
    rw [msgAttStatic]
    alt_at 5
    simp [MessageDataItem.enc, tagNC, rt_nstring (r := r) h hr0]
  | bodyStructure b =>
    simp only [MessageDataItem.valid, Bool.and_eq_true, decide_eq_true_eq] at h
    alt_at 1
    rw [msgAttStatic]
    alt_at 6
    simp [MessageDataItem.enc, tagNC, rt_body b 8 r h.1 h.2]
  | body b =>
    simp only [MessageDataItem.valid, Bool.and_eq_true, decide_eq_true_eq] at h
    alt_at 1
    rw [msgAttStatic]
    alt_at 7
    simp [MessageDataItem.enc, tagNC, rt_body b 8 r h.1 h.2]
  | bodyExt s o d =>
    simp only [MessageDataItem.valid, Bool.and_eq_true] at h
    have e1 := fun r => rt_section (r := r) h.1.1
    have e2 := fun r => rt_origin (r := r) h.1.2
    have e3 := rt_nstring h.2 hr0
    alt_at 1
    rw [msgAttStatic]
    alt_at 8
    have e4 : bytes (MessageDataItem.bodyExt s o d).enc ++ r =
        b!"BODY" ++ (91 :: (bytes (encSectionOpt s) ++ 93 :: (bytes (encOrigin o) ++ 32 :: (bytes (encNString d) ++ r)))) := by
      simp [MessageDataItem.enc]
    rw [e4, msgBodyExt]
    simp only [P.bind_apply, tagNC_append, Res.andThen_ok, e1]
    rw [e2]
    simp [sp_cons, e3]
  | uid n =>
    have := nonZero_of_wf h
    alt_at 1
    rw [msgAttStatic]
    alt_at 9
    simp [MessageDataItem.enc, tagNC, rt_nzNumber this.1 this.2 hr]
  | binary s v =>
    simp only [MessageDataItem.valid, Bool.and_eq_true] at h
    alt_at 1
    rw [msgAttStatic]
    alt_at 10
    simp [MessageDataItem.enc, tagNC, rt_sectionBinary h.1, sp_cons, rt_imapValue h.2 hr0]
  | binarySize s n =>
    simp only [MessageDataItem.valid, Bool.and_eq_true, decide_eq_true_eq] at h
    alt_at 1
    rw [msgAttStatic]
    alt_at 11
    simp [MessageDataItem.enc, tagNC, rt_sectionBinary h.1, sp_cons, rt_number h.2 hr]

theorem rt_msgAtt {l : List MessageDataItem} {r : Bytes} (hl : l ≠ []) (h : ∀ a ∈ l, a.valid = true) (hm : ∀ a ∈ l, a.noModSeq = true) :
    msgAtt (40 :: (bytes (join b!" " (l.map MessageDataItem.enc)) ++ 41 :: r)) = .ok r l := by
  have := sepList1_sp (p := alt [msgAttDynamic, msgAttStatic]) (e := MessageDataItem.enc) (g := id) (F := fun r => Stops isDigit r = true)
    (rest := 41 :: r) hl (fun v hv r hr => rt_msgItem (h v hv) (hm v hv) hr) (fun _ => rfl) rfl rfl
  simp only [msgAtt, P.bind_apply, tag, Res.andThen_ok, if_true]
  rw [this]
  simp [tag]

/-! ### Threads -/

omit [Quirks] in
theorem Thread.enc_go : ∀ l : List Thread, bytes (Thread.enc.go l) = l.flatMap fun t => bytes t.enc
  | [] => rfl
  | t :: l => by simp [Thread.enc.go, Thread.enc_go l]

omit [Quirks] in
theorem Thread.enc_head (t : Thread) : ∃ x, bytes t.enc = 40 :: x := by
  cases t <;> simp [Thread.enc]

omit [Quirks] in
theorem threadList_error {n : Nat} {b : UInt8} {r : Bytes} (h : b ≠ 40) : threadList (n + 1) (b :: r) = .error := by
  simp [threadList, tag, Ne.symm h]

omit [Quirks] in
theorem rt_threads {n : Nat} {l : List Thread} {b : UInt8} {r : Bytes} (hb : b ≠ 40)
    (hp : ∀ t ∈ l, ∀ r, threadList (n + 1) (bytes t.enc ++ r) = .ok r t) :
    many0 (threadList (n + 1)) (l.flatMap (fun t => bytes t.enc) ++ b :: r) = .ok (b :: r) l := by
  have := many0_concat (p := threadList (n + 1)) (e := fun t => bytes t.enc) (g := id) (F := fun _ => True) (rest := b :: r) l
    (fun v hv r _ => hp v hv r) (fun v _ => by obtain ⟨x, hx⟩ := v.enc_head; simp [hx]) (fun _ _ _ => trivial) trivial
    (threadList_error hb)
  simpa using this

omit [Quirks] in
theorem many2_ok {p : P α} {x r : Bytes} {l : List α} (h : many0 p x = .ok r l) (hl : 2 ≤ l.length) : many2 p x = .ok r l := by
  simp [many2, h, hl]

omit [Quirks] in
theorem rt_prefix {p : List NzU32} {r : Bytes} (h : p ≠ []) (hp : p.all isNonZeroU32 = true) (hr : Stops isDigit r = true)
    (hstop : (do sp; nzNumber : P Nat) r = .error) :
    sepList1 sp nzNumber (bytes (join b!" " (p.map encNat)) ++ r) = .ok r p := by
  have := sepList1_join (sep := sp) (p := nzNumber) (e := encNat) (g := id) (F := fun r => Stops isDigit r = true) (s := b!" ") (rest := r)
    h (fun r => sp_cons r) (by simp) (fun v hv r hr => by
      have := nonZero_of_wf (List.all_eq_true.1 hp v hv)
      simpa [encNat] using rt_nzNumber this.1 this.2 hr) (fun _ => rfl) hr hstop
  simpa using this

omit [Quirks] in
theorem rt_threadList : ∀ (n : Nat) (t : Thread) (r : Bytes), t.valid = true → t.depth ≤ n → threadList n (bytes t.enc ++ r) = .ok r t
  | 0, t, r, _, hd => by cases t <;> simp [Thread.depth] at hd <;> omega
  | n + 1, t, r, h, hd => by
    have hrec : ∀ l : List Thread, l ≠ [] → Thread.valid.go l = true → Thread.depth.go l ≤ n → ∃ m, n = m + 1 ∧
        ∀ t ∈ l, ∀ r, threadList (m + 1) (bytes t.enc ++ r) = .ok r t := by
      intro l hl hv hdl
      rw [Thread.valid_go] at hv
      rw [Thread.depth_go] at hdl
      have hn : 0 < n := by
        cases l with
        | nil => exact absurd rfl hl
        | cons t l =>
          have := hdl t (by simp)
          cases t <;> simp only [Thread.depth] at this <;> omega
      refine ⟨n - 1, by omega, fun t ht r => ?_⟩
      rw [show n - 1 + 1 = n by omega]
      exact rt_threadList n t r (List.all_eq_true.1 hv t ht) (hdl t ht)
    rw [threadList]
    simp only [P.bind_apply]
    cases t with
    | members p l =>
      simp only [Thread.valid, Bool.and_eq_true, Bool.not_eq_true', List.isEmpty_eq_false_iff, bne_iff_ne] at h
      obtain ⟨⟨⟨h1, h2⟩, h3⟩, h4⟩ := h
      simp only [Thread.depth] at hd
      rcases l with _ | ⟨a, l⟩
      · have e := rt_prefix (r := 41 :: r) h1 h2 rfl rfl
        have e' : opt (do sp; many2 (threadList n)) (41 :: r) = .ok (41 :: r) none := rfl
        simp [Thread.enc, Thread.enc.go, encPrefix, tag, orElse, e, e']
      · obtain ⟨m, rfl, hm⟩ := hrec (a :: l) (by simp) h4 (by omega)
        have e2 := many2_ok (rt_threads (n := m) (b := 41) (r := r) (by decide) hm) (by simp at h3; rcases l with _ | _ <;> simp at h3 ⊢)
        obtain ⟨x, hx⟩ : ∃ x, (a :: l).flatMap (fun t => bytes t.enc) = 40 :: x := by
          obtain ⟨y, hy⟩ := a.enc_head
          simp [hy]
        have e := rt_prefix (r := 32 :: ((a :: l).flatMap (fun t => bytes t.enc) ++ 41 :: r)) h1 h2 rfl
          (by rw [hx]; simp [sp_cons]; rfl)
        have e3 : bytes (Thread.members p (a :: l)).enc ++ r =
            40 :: (bytes (join b!" " (p.map encNat)) ++ 32 :: ((a :: l).flatMap (fun t => bytes t.enc) ++ 41 :: r)) := by
          simp [Thread.enc, Thread.enc_go, encPrefix]
        have e4 : opt (do sp; many2 (threadList (m + 1))) (32 :: ((a :: l).flatMap (fun t => bytes t.enc) ++ 41 :: r)) =
            .ok (41 :: r) (some (a :: l)) := opt_ok (by simp only [P.bind_apply, sp_cons, Res.andThen_ok, e2])
        rw [e3]
        simp only [tag, if_true, Res.andThen_ok]
        refine (congrArg (Res.andThen · _) (alt_hit (r := 41 :: r) (v := .members p (a :: l)) ?_)).trans ?_
        · simp only [P.bind_apply, e, Res.andThen_ok]
          rw [e4]
          rfl
        · simp [tag]
    | nested l =>
      simp only [Thread.valid, Bool.and_eq_true, decide_eq_true_eq] at h
      simp only [Thread.depth] at hd
      obtain ⟨m, rfl, hm⟩ := hrec l (by rintro rfl; simp at h) h.2 (by omega)
      have e2 := many2_ok (rt_threads (n := m) (b := 41) (r := r) (by decide) hm) h.1
      obtain ⟨x, hx⟩ : ∃ x, l.flatMap (fun t => bytes t.enc) = 40 :: x := by
        rcases l with _ | ⟨a, l⟩
        · simp at h
        obtain ⟨y, hy⟩ := a.enc_head
        simp [hy]
      have e3 : bytes (Thread.nested l).enc ++ r = 40 :: (l.flatMap (fun t => bytes t.enc) ++ 41 :: r) := by
        simp [Thread.enc, Thread.enc_go]
      rw [e3]
      simp only [tag, if_true, Res.andThen_ok]
      refine (congrArg (Res.andThen · _) (Eq.trans (alt_skip ?_) (alt_hit (r := 41 :: r) (v := .nested l) ?_))).trans ?_
      · rw [hx]; rfl
      · simp [e2]
      · simp [tag]

omit [Quirks] in
theorem many1_ok {p : P α} {x r : Bytes} {a : α} {l : List α} (h : many0 p x = .ok r (a :: l)) : many1 p x = .ok r (a :: l) := by
  rw [Imap.many0.eq_def p] at h
  simp only [many1, P.bind_apply]
  split at h
  · next r' v e =>
    split at h
    · rw [e]
      exact h
    · simp at h
  all_goals simp at h

omit [Quirks] in
theorem bytes_flatten_map {f : α → List W} (l : List α) : bytes (l.map f).flatten = l.flatMap fun a => bytes (f a) := by
  induction l with
  | nil => rfl
  | cons a l ih => simp [ih]

omit [Quirks] in
theorem rt_threadData {l : List Thread} {r : Bytes} (h : (l.all fun t => t.valid && t.depth ≤ 8) = true) :
    threadData (b!"THREAD" ++ ((if l = [] then [] else 32 :: l.flatMap fun t => bytes t.enc) ++ 13 :: r)) = .ok (13 :: r) l := by
  cases l with
  | nil => rfl
  | cons a l =>
    have e := many1_ok (rt_threads (n := 7) (l := a :: l) (b := 13) (r := r) (by decide) (fun t ht r => by
      have := List.all_eq_true.1 h t ht
      simp at this
      exact rt_threadList 8 t r this.1 this.2))
    have e1 : opt (do sp; many1 (threadList 8)) (32 :: ((a :: l).flatMap (fun t => bytes t.enc) ++ 13 :: r)) =
        .ok (13 :: r) (some (a :: l)) := opt_ok (by simp only [P.bind_apply, sp_cons, Res.andThen_ok]; exact e)
    rw [if_neg (by simp)]
    simp only [threadData, P.bind_apply, tagNC_append, Res.andThen_ok]
    rw [List.cons_append, e1]
    rfl

omit [Quirks] in
theorem bytes_encThreads (l : List Thread) :
    bytes (encThreads l) = b!"* " ++ (b!"THREAD" ++ (if l = [] then [] else 32 :: l.flatMap fun t => bytes t.enc)) := by
  cases l with
  | nil => rfl
  | cons a l => simp [encThreads, bytes_flatten_map]

/-! ### Namespaces -/

omit [Quirks] in
theorem rt_delimiter {d : Option UInt8} {r : Bytes} (h : isDelimiter d = true) : delimiter (bytes (encDelimiter d) ++ r) = .ok r d := by
  cases d with
  | none => rfl
  | some c =>
    have : quotedChar (encQuotedChar c ++ 34 :: r) = .ok (34 :: r) c := by
      have h1 : ∀ c : UInt8, isQuotedChar c = true → c ≠ 92 → c ≠ 34 → isAnyTextCharExceptQuotedSpecials c = true := forall_byte (by decide)
      unfold encQuotedChar
      split
      · next hc => subst hc; rfl
      · next hc =>
        split
        · next hc => subst hc; rfl
        · next hd => simp [quotedChar, orElse, satisfy, h1 c h hc hd]
    simp [delimiter, encDelimiter, dquote, char, orElse, this]

theorem rt_namespaceExt {e : NamespaceExt} {r : Bytes} (h : e.valid = true) : namespaceExt (bytes e.enc ++ r) = .ok r e := by
  simp only [NamespaceExt.valid, Bool.and_eq_true, Bool.not_eq_true', List.isEmpty_eq_false_iff, List.all_eq_true] at h
  have e1 := fun x => rt_string (r := 32 :: x) h.1.1 (by simp)
  have e2 := sepList1_sp (p := string) (e := IString.enc) (g := id) (F := fun r => r ≠ [])
    (rest := 41 :: r) h.1.2 (fun v hv r hr => rt_string (h.2 v hv) hr) (by simp) (by simp) rfl
  simp [namespaceExt, NamespaceExt.enc, sp_cons, e1, e2, char]

theorem rt_namespaceDescr {n : Namespace} {r : Bytes} (h : n.valid = true) : namespaceDescr (bytes n.enc ++ r) = .ok r n := by
  simp only [Namespace.valid, Bool.and_eq_true, List.all_eq_true] at h
  have e1 := fun x => rt_string (r := 32 :: x) h.1.1 (by simp)
  have e2 := fun x => rt_delimiter (r := x) h.1.2
  have e3 := many0_concat (p := namespaceExt) (e := fun e => bytes e.enc) (g := id) (F := fun _ => True) (rest := 41 :: r) n.extensions
    (fun v hv r _ => rt_namespaceExt (h.2 v hv)) (fun v _ => by simp [NamespaceExt.enc]) (fun _ _ _ => trivial) trivial rfl
  simp [namespaceDescr, Namespace.enc, sp_cons, e1, e2, bytes_flatten_map, e3, char]

theorem rt_namespaces {l : List Namespace} {r : Bytes} (h : l.all Namespace.valid = true) :
    namespaces (bytes (encNamespaces l) ++ r) = .ok r l := by
  cases l with
  | nil => rfl
  | cons a l =>
    have e3 := many0_concat (p := namespaceDescr) (e := fun e => bytes e.enc) (g := id) (F := fun _ => True) (rest := 41 :: r) (a :: l)
      (fun v hv r _ => rt_namespaceDescr (List.all_eq_true.1 h v hv)) (fun v _ => by simp [Namespace.enc]) (fun _ _ _ => trivial) trivial rfl
    rw [List.map_id] at e3
    have e4 := many1_ok e3
    rw [namespaces]
    alt_at 1
    have e5 : bytes (encNamespaces (a :: l)) ++ r = 40 :: ((a :: l).flatMap (fun e => bytes e.enc) ++ 41 :: r) := by
      simp [encNamespaces, bytes_flatten_map]
    rw [e5]
    simp only [P.bind_apply, char, if_true, Res.andThen_ok, beq_self_eq_true]
    rw [e4]
    simp [char]

/-! ### Quotas and metadata -/

theorem rt_quotaSp {n : Nat} {r : Bytes} : quotaSp (32 :: (showNat n ++ r)) = .ok (showNat n ++ r) () := by
  obtain ⟨b, bs, e, hb⟩ := showNat_head n
  have hb' : b ≠ 32 := by rintro rfl; exact absurd hb (by decide)
  unfold quotaSp
  split
  · have : many0 sp (b :: (bs ++ r)) = .ok (b :: (bs ++ r)) [] := many0_stop (by simp [sp, char, hb'])
    rw [e]
    simp only [value, P.bind_apply, many1, sp_cons, Res.andThen_ok, List.cons_append, this]
    rfl
  · rw [sp_cons]

theorem rt_quotaResource {q : QuotaGet} {r : Bytes} (h : q.valid = true) (hr : Stops isDigit r = true) :
    quotaResource (bytes q.enc ++ r) = .ok r q := by
  simp only [QuotaGet.valid, Bool.and_eq_true, decide_eq_true_eq] at h
  have e1 := fun x => rt_resourceName (r := 32 :: x) h.1.1 rfl
  have e2 := fun x => rt_number64 (r := 32 :: x) h.1.2 rfl
  have e3 := rt_number64 h.2 hr
  simp [quotaResource, QuotaGet.enc, e1, rt_quotaSp, e2, e3]

theorem AString.enc_head {s : AString} (h : s.valid = true) : ∃ b x, bytes s.enc = b :: x ∧ b ≠ 40 := by
  cases s with
  | atom s =>
    simp only [AString.valid, isAtomExt, Bool.and_eq_true] at h
    cases s with
    | nil => simp at h
    | cons b s =>
      refine ⟨b, s, by simp [AString.enc], ?_⟩
      rintro rfl
      simp at h
      exact absurd h.1 (by decide)
  | string s =>
    cases s with
    | literal l =>
      obtain ⟨d, m⟩ := l
      cases m <;> exact ⟨123, _, rfl, by decide⟩
    | _ => exact ⟨34, _, rfl, by decide⟩

theorem rt_metadataItems {m : MetadataResponse} {r : Bytes} (h : m.valid = true) :
    metadataItems (bytes m.enc ++ 13 :: r) = .ok (13 :: r) m := by
  rw [metadataItems]
  cases m with
  | withValues l =>
    simp only [MetadataResponse.valid, Bool.and_eq_true, Bool.not_eq_true', List.isEmpty_eq_false_iff, List.all_eq_true] at h
    have := rt_entryValues (r := 13 :: r) h.1 h.2
    alt_at 0
    simp [MetadataResponse.enc, this]
  | withoutValues l =>
    simp only [MetadataResponse.valid, Bool.and_eq_true, Bool.not_eq_true', List.isEmpty_eq_false_iff, List.all_eq_true] at h
    have e := sepList1_sp (p := entry) (e := AString.enc) (g := id) (F := fun r => Stops isAStringChar r = true)
      (rest := 13 :: r) h.1 (fun v hv r hr => by rw [entry]; exact rt_astring (h.2 v hv) hr) (fun _ => rfl) rfl rfl
    refine Eq.trans (alt_skip ?_) (alt_hit (by simp [MetadataResponse.enc, e]))
    rcases l with _ | ⟨a, l⟩
    · simp at h
    obtain ⟨b, x, hx, hb⟩ := AString.enc_head (h.2 a (by simp))
    simp [MetadataResponse.enc, bytes_join, hx, entryValues, tag, Ne.symm hb]

/-! ### Data responses -/

theorem rt_mailboxList {l : List FlagNameAttribute} {d : Option UInt8} {m : Mailbox} {r : Bytes}
    (hl : l.all FlagNameAttribute.valid = true) (hd : isDelimiter d = true) (hm : m.valid = true) :
    mailboxList (40 :: (bytes (join b!" " (l.map FlagNameAttribute.enc)) ++ 41 :: 32 :: (bytes (encDelimiter d) ++
      32 :: (bytes m.enc ++ 13 :: r)))) = .ok (13 :: r) (l, d, m) := by
  have e2 := fun x => rt_delimiter (r := x) hd
  have e3 := rt_mailbox (r := 13 :: r) hm rfl
  have e1 : ∀ x, opt mbxListFlags (bytes (join b!" " (l.map FlagNameAttribute.enc)) ++ 41 :: x) =
      .ok (41 :: x) (if l = [] then none else some l) := by
    intro x
    cases l with
    | nil => rfl
    | cons a l => exact opt_ok (rt_mbxListFlags (by simp) (List.all_eq_true.1 hl))
  have e4 : (if l = [] then none else some l).getD [] = l := by split <;> simp_all
  simp only [mailboxList, P.bind_apply, tag, if_true, Res.andThen_ok]
  rw [e1]
  simp only [P.bind_apply, Res.andThen_ok, tag, if_true, sp_cons, e2, e3, e4]
  rfl

omit [Quirks] in
theorem bytes_encNumbers (kw : Bytes) (l : List NzU32) :
    bytes (encNumbers kw l) = b!"* " ++ (kw ++ l.flatMap fun n => 32 :: showNat n) := by
  cases l with
  | nil => simp [encNumbers]
  | cons a l => simp [encNumbers, bytes_join, encNat, List.flatMap_map]

theorem rt_searchNumbers {l : List NzU32} {m : Option Nat} {r : Bytes} (hl : l.all isNonZeroU32 = true) (hm : isModSeqOpt m = true) :
    searchNumbers ((l.flatMap fun n => 32 :: showNat n) ++ (bytes (encModSeqOpt m) ++ 13 :: r)) = .ok (13 :: r) (l, m) := by
  have hF : Stops isDigit (bytes (encModSeqOpt m) ++ 13 :: r) = true := by cases m <;> rfl
  have hstop : (do sp; nzNumber : P Nat) (bytes (encModSeqOpt m) ++ 13 :: r) = .error := by cases m <;> rfl
  have e1 := many0_concat (p := (do sp; nzNumber : P Nat)) (e := fun n => 32 :: showNat n) (g := id) (F := fun r => Stops isDigit r = true)
    (rest := bytes (encModSeqOpt m) ++ 13 :: r) l (fun v hv r hr => by
      have := nonZero_of_wf (List.all_eq_true.1 hl v hv)
      simp [sp_cons, rt_nzNumber this.1 this.2 hr]) (by simp) (fun _ _ _ => rfl) hF hstop
  have e2 : opt (gate Quirks.extCondstoreQresync (do char 32; searchSortModSeq)) (bytes (encModSeqOpt m) ++ 13 :: r) = .ok (13 :: r) m := by
    cases m with
    | none => rfl
    | some n =>
      simp only [isModSeqOpt, Bool.and_eq_true] at hm
      have := isNonZeroU64_iff.1 hm.2
      have e := rt_modSequenceValue (r := 41 :: 13 :: r) this.1 this.2 rfl
      rw [gate_on hm.1]
      exact opt_ok (by simp [encModSeqOpt, searchSortModSeq, char, tagNC, e])
  simp only [searchNumbers, P.bind_apply, e1, Res.andThen_ok, List.map_id]
  rw [e2]
  rfl

omit [Quirks] in
theorem rt_optSpIf {b : Bool} {r : Bytes} : optSpIf b (13 :: r) = .ok (13 :: r) () := by
  cases b <;> rfl

theorem rt_statusItems {l : List StatusDataItem} {r : Bytes} (h : l.all StatusDataItem.valid = true) :
    statusItems (32 :: 40 :: (bytes (join b!" " (l.map StatusDataItem.enc)) ++ 41 :: r)) = .ok r l := by
  cases l with
  | nil => rfl
  | cons a l =>
    have := sepList1_sp (p := statusAttVal) (e := StatusDataItem.enc) (g := id) (F := fun r => Stops isDigit r = true)
      (rest := 41 :: r) (l := a :: l) (by simp) (fun v hv r hr => rt_statusAttVal (List.all_eq_true.1 h v hv) hr) (fun _ => rfl) rfl rfl
    simp only [statusItems, P.bind_apply, tag, Res.andThen_ok, if_true]
    rw [opt_ok this]
    simp [tag]

omit [Quirks] in
theorem bytes_encSpaced {f : α → List W} (l : List α) : bytes (encSpaced f l) = l.flatMap fun x => 32 :: bytes (f x) := by
  simp [encSpaced, bytes_flatten_map]

omit [Quirks] in
theorem map_ok {β : Type} {p : P α} {f : α → β} {x r : Bytes} {v : α} (h : p x = .ok r v) : (f <$> p) x = .ok r (f v) := by
  simp [h]

/-- The alternatives of `mailbox_data` that start with a keyword reject a digit. -/
theorem mailboxData_digit {b : UInt8} {x : Bytes} (hb : isLetter b = false) :
    mailboxData (b :: x) = alt [.exists_ <$> (do let n ← number; tagNC b!" EXISTS"; return n),
      .recent <$> (do let n ← number; tagNC b!" RECENT"; return n), quotarootResponse, quotaResponse] (b :: x) := by
  rw [mailboxData]
  refine Eq.trans (alt_skip (by simp [tagNC_nonletter hb])) ?_
  refine Eq.trans (alt_skip (by simp [tagNC_nonletter hb])) ?_
  refine Eq.trans (alt_skip (by simp [tagNC_nonletter hb])) ?_
  refine Eq.trans (alt_skip (by simp [searchData, tagNC_nonletter hb])) ?_
  refine Eq.trans (alt_skip (by simp [sortData, tagNC_nonletter hb])) ?_
  refine Eq.trans (alt_skip (by simp [threadData, tagNC_nonletter hb])) ?_
  refine Eq.trans (alt_skip (by simp [statusData, tagNC_nonletter hb])) ?_
  refine Eq.trans (alt_skip (gate_error (by simp [metadataResp, tagNC_nonletter hb]))) ?_
  refine Eq.trans (alt_skip (gate_error (by simp [namespaceResponse, tagNC_nonletter hb]))) ?_
  rfl

/-- So do the status responses. -/
theorem responseDataInner_digit {b : UInt8} {x : Bytes} (hb : isLetter b = false) :
    responseDataInner (b :: x) = alt [.data <$> mailboxData, .data <$> messageData, (fun l => .data (.capability l)) <$> capabilityData,
      .data <$> enableData, gate Quirks.extId ((fun p => .data (.id_ p)) <$> idResponse)] (b :: x) := by
  rw [responseDataInner]
  refine Eq.trans (alt_skip (by simp [respCondState, condStateKind, orElse, value, tagNC_nonletter hb])) ?_
  refine Eq.trans (alt_skip (by simp [respCondBye, tagNC_nonletter hb])) ?_
  rfl

omit [Quirks] in
theorem showNat_append_head (n : Nat) (x : Bytes) : ∃ b bs, showNat n ++ x = b :: bs ∧ isLetter b = false := by
  obtain ⟨b, bs, e, hb⟩ := showNat_head n
  have : ∀ b : UInt8, isDigit b = true → isLetter b = false := forall_byte (by decide)
  exact ⟨b, bs ++ x, by simp [e], this b hb⟩

theorem rt_exists {n : Nat} {r : Bytes} (h : n < 4294967296) :
    responseDataInner (showNat n ++ (b!" EXISTS" ++ 13 :: r)) = .ok (13 :: r) (.data (.exists_ n)) := by
  have e := rt_number (r := b!" EXISTS" ++ 13 :: r) h rfl
  obtain ⟨b, bs, hx, hb⟩ := showNat_append_head n (b!" EXISTS" ++ 13 :: r)
  rw [hx] at e ⊢
  rw [responseDataInner_digit hb]
  refine alt_hit (map_ok ?_)
  rw [mailboxData_digit hb]
  refine alt_hit ?_
  simp [e, tagNC]

theorem rt_recent {n : Nat} {r : Bytes} (h : n < 4294967296) :
    responseDataInner (showNat n ++ (b!" RECENT" ++ 13 :: r)) = .ok (13 :: r) (.data (.recent n)) := by
  have e := rt_number (r := b!" RECENT" ++ 13 :: r) h rfl
  obtain ⟨b, bs, hx, hb⟩ := showNat_append_head n (b!" RECENT" ++ 13 :: r)
  rw [hx] at e ⊢
  rw [responseDataInner_digit hb]
  refine alt_hit (map_ok ?_)
  rw [mailboxData_digit hb]
  refine Eq.trans (alt_skip ?_) (alt_hit ?_)
  · simp [e, tagNC, lower]
  · simp [e, tagNC]

/-- A message number followed by a space and neither EXISTS nor RECENT. -/
theorem responseDataInner_message {n : Nat} {c : UInt8} {x r : Bytes} {d : Data} (h : isNonZeroU32 n = true) (hc : isLetter c = true)
    (h1 : tagNC b!" EXISTS" (32 :: c :: x) = .error) (h2 : tagNC b!" RECENT" (32 :: c :: x) = .error)
    (h3 : messageDataTail n (c :: x) = .ok r d) : responseDataInner (showNat n ++ 32 :: c :: x) = .ok r (.data d) := by
  have hn := nonZero_of_wf h
  have e := rt_number (r := 32 :: c :: x) hn.2 rfl
  have e' := rt_nzNumber (r := 32 :: c :: x) hn.1 hn.2 rfl
  obtain ⟨b, bs, hx, hb⟩ := showNat_append_head n (32 :: c :: x)
  rw [hx] at e e' ⊢
  rw [responseDataInner_digit hb]
  refine Eq.trans (alt_skip ?_) (alt_hit (map_ok ?_))
  · have : mailboxData (b :: bs) = .error := by
      rw [mailboxData_digit hb]
      refine Eq.trans (alt_skip ?_) (Eq.trans (alt_skip ?_) ?_)
      · simp [e, h1]
      · simp [e, h2]
      · simp [orElse, quotarootResponse, quotaResponse, tagNC_nonletter hb]
    simp [this]
  · rw [messageData]
    refine alt_hit ?_
    simp [e', sp_cons, h3]

/-- The round trip of data responses, between `* ` and CRLF. -/
theorem rt_dataLine {d : Data} (h : d.valid = true) (hm : d.noModSeq = true) :
    ∃ y, bytes d.encLine = b!"* " ++ y ∧ ∀ r, responseDataInner (y ++ 13 :: r) = .ok (13 :: r) (.data d.norm) := by
  cases d with
  | capability l =>
    simp only [Data.valid, Bool.and_eq_true, Bool.not_eq_true', List.isEmpty_eq_false_iff] at h
    refine ⟨b!"CAPABILITY " ++ bytes (join b!" " (l.map Capability.enc)), by simp [Data.encLine], fun r => ?_⟩
    have := rt_capabilityData (r := 13 :: r) h.1 (List.all_eq_true.1 h.2) rfl
    rw [responseDataInner, List.append_assoc]
    alt_at 4
    exact map_ok this
  | list l d m =>
    simp only [Data.valid, Bool.and_eq_true] at h
    refine ⟨b!"LIST (" ++ (bytes (join b!" " (l.map FlagNameAttribute.enc)) ++ 41 :: 32 :: (bytes (encDelimiter d) ++
      32 :: bytes m.enc)), by simp [Data.encLine], fun r => ?_⟩
    have := rt_mailboxList (r := r) h.1.1 h.1.2 h.2
    rw [responseDataInner]
    alt_at 2
    refine map_ok ?_
    rw [mailboxData]
    alt_at 1
    simp [tagNC, this, Data.norm]
  | lsub l d m =>
    simp only [Data.valid, Bool.and_eq_true] at h
    refine ⟨b!"LSUB (" ++ (bytes (join b!" " (l.map FlagNameAttribute.enc)) ++ 41 :: 32 :: (bytes (encDelimiter d) ++
      32 :: bytes m.enc)), by simp [Data.encLine], fun r => ?_⟩
    have := rt_mailboxList (r := r) h.1.1 h.1.2 h.2
    rw [responseDataInner]
    alt_at 2
    refine map_ok ?_
    rw [mailboxData]
    alt_at 2
    simp [tagNC, this, Data.norm]
  | status m l =>
    simp only [Data.valid, Bool.and_eq_true] at h
    refine ⟨b!"STATUS " ++ (bytes m.enc ++ 32 :: 40 :: (bytes (join b!" " (l.map StatusDataItem.enc)) ++ [41])),
      by simp [Data.encLine], fun r => ?_⟩
    have e1 := fun x => rt_mailbox (r := 32 :: x) h.1 rfl
    have e2 := rt_statusItems (r := 13 :: r) h.2
    rw [responseDataInner]
    alt_at 2
    refine map_ok ?_
    rw [mailboxData]
    alt_at 6
    simp [statusData, tagNC, e1, e2, rt_optSpIf, Data.norm]
  | search l m =>
    simp only [Data.valid, Bool.and_eq_true] at h
    refine ⟨b!"SEARCH" ++ (l.flatMap (fun n => 32 :: showNat n) ++ bytes (encModSeqOpt m)),
      by simp [Data.encLine, bytes_encNumbers], fun r => ?_⟩
    have e := rt_searchNumbers (r := r) h.1 h.2
    rw [responseDataInner]
    alt_at 2
    refine map_ok ?_
    rw [mailboxData]
    alt_at 3
    simp [searchData, tagNC, e, rt_optSpIf, Data.norm]
  | sort l m =>
    simp only [Data.valid, Bool.and_eq_true] at h
    refine ⟨b!"SORT" ++ (l.flatMap (fun n => 32 :: showNat n) ++ bytes (encModSeqOpt m)),
      by simp [Data.encLine, bytes_encNumbers], fun r => ?_⟩
    have e := rt_searchNumbers (r := r) h.1 h.2
    rw [responseDataInner]
    alt_at 2
    refine map_ok ?_
    rw [mailboxData]
    alt_at 4
    simp [sortData, tagNC, e, Data.norm]
  | thread l =>
    refine ⟨_, bytes_encThreads l, fun r => ?_⟩
    have e := rt_threadData (r := r) h
    rw [responseDataInner, List.append_assoc]
    alt_at 2
    refine map_ok ?_
    rw [mailboxData]
    alt_at 5
    exact map_ok e
  | flags l =>
    refine ⟨b!"FLAGS (" ++ (bytes (join b!" " (l.map Flag.enc)) ++ [41]), by simp [Data.encLine], fun r => ?_⟩
    have e := rt_flagList (r := 13 :: r) (List.all_eq_true.1 h)
    rw [responseDataInner]
    alt_at 2
    refine map_ok ?_
    rw [mailboxData]
    alt_at 0
    simp [tagNC, e, Data.norm]
  | exists_ n =>
    refine ⟨showNat n ++ b!" EXISTS", by simp [Data.encLine], fun r => ?_⟩
    rw [List.append_assoc]
    exact rt_exists (of_decide_eq_true h)
  | recent n =>
    refine ⟨showNat n ++ b!" RECENT", by simp [Data.encLine], fun r => ?_⟩
    rw [List.append_assoc]
    exact rt_recent (of_decide_eq_true h)
  | expunge n =>
    refine ⟨showNat n ++ b!" EXPUNGE", by simp [Data.encLine], fun r => ?_⟩
    rw [List.append_assoc]
    exact responseDataInner_message h (by decide) rfl rfl rfl
  | fetch n l =>
    simp only [Data.valid, Bool.and_eq_true, Bool.not_eq_true', List.isEmpty_eq_false_iff] at h
    refine ⟨showNat n ++ (b!" FETCH (" ++ (bytes (join b!" " (l.map MessageDataItem.enc)) ++ [41])), by simp [Data.encLine], fun r => ?_⟩
    have e := rt_msgAtt (r := 13 :: r) h.1.2 (List.all_eq_true.1 h.2) (List.all_eq_true.1 hm)
    rw [List.append_assoc]
    refine responseDataInner_message h.1.1 (by decide) rfl rfl ?_
    rw [messageDataTail]
    alt_at 1
    simp [tagNC, e, Data.norm]
  | enabled l =>
    refine ⟨b!"ENABLED" ++ l.flatMap fun c => 32 :: bytes c.enc, by simp [Data.encLine, bytes_encSpaced], fun r => ?_⟩
    have e := many0_concat (p := (do sp; capabilityEnable : P CapabilityEnable)) (e := fun c => 32 :: bytes c.enc) (g := id)
      (F := fun r => Stops isAtomChar r = true) (rest := 13 :: r) l (fun v hv r hr => by
        simp [sp_cons, rt_capabilityEnable (List.all_eq_true.1 h v hv) hr]) (by simp) (fun _ _ _ => rfl) rfl rfl
    rw [responseDataInner]
    alt_at 5
    refine map_ok ?_
    simp [enableData, tagNC, e, Data.norm]
  | quota a l =>
    simp only [Data.valid, Bool.and_eq_true, Bool.not_eq_true', List.isEmpty_eq_false_iff, List.all_eq_true] at h
    refine ⟨b!"QUOTA " ++ (bytes a.enc ++ 32 :: 40 :: (bytes (join b!" " (l.map QuotaGet.enc)) ++ [41])), by simp [Data.encLine], fun r => ?_⟩
    have e1 := fun x => rt_astring (r := 32 :: x) h.1.1 rfl
    have e2 := sepList1_sp (p := quotaResource) (e := QuotaGet.enc) (g := id) (F := fun r => Stops isDigit r = true)
      (rest := 41 :: 13 :: r) h.1.2 (fun v hv r hr => rt_quotaResource (h.2 v hv) hr) (fun _ => rfl) rfl rfl
    rw [responseDataInner]
    alt_at 2
    refine map_ok ?_
    rw [mailboxData]
    alt_at 12
    simp [quotaResponse, tagNC, e1, tag, e2, Data.norm]
  | quotaRoot m l =>
    simp only [Data.valid, Bool.and_eq_true, List.all_eq_true] at h
    refine ⟨b!"QUOTAROOT " ++ (bytes m.enc ++ l.flatMap fun c => 32 :: bytes c.enc), by simp [Data.encLine, bytes_encSpaced], fun r => ?_⟩
    have e := many0_concat (p := (do sp; astring : P AString)) (e := fun c => 32 :: bytes c.enc) (g := id)
      (F := fun r => Stops isAStringChar r = true) (rest := 13 :: r) l (fun v hv r hr => by
        simp [sp_cons, rt_astring (h.2 v hv) hr]) (by simp) (fun _ _ _ => rfl) rfl rfl
    have hs : Stops isAStringChar (l.flatMap (fun c => 32 :: bytes c.enc) ++ 13 :: r) = true := by
      cases l <;> rfl
    have e1 := rt_mailbox h.1 hs
    rw [responseDataInner]
    alt_at 2
    refine map_ok ?_
    rw [mailboxData]
    alt_at 11
    simp [quotarootResponse, tagNC, e1, e, Data.norm]
  | id_ p =>
    refine ⟨b!"ID " ++ bytes (encIdParams p), by simp [Data.encLine], fun r => ?_⟩
    simp only [Data.valid, Bool.and_eq_true] at h
    have e := rt_idParamsList (r := 13 :: r) (o := p) h.2
    have hn : (Data.id_ p).norm = .id_ (if p = some [] ∧ Quirks.idEmptyToNil then none else p) := by
      rcases p with _ | _ | ⟨a, l⟩
      · simp [Data.norm]
      · cases hq : Quirks.idEmptyToNil <;> simp [Data.norm, hq]
      · simp [Data.norm]
    rw [responseDataInner, hn]
    alt_at 6
    rw [gate_on h.1]
    refine map_ok (f := fun p => Response.data (.id_ p)) ?_
    simp [idResponse, tagNC, e]
  | metadata m x =>
    simp only [Data.valid, Bool.and_eq_true] at h
    refine ⟨b!"METADATA " ++ (bytes m.enc ++ 32 :: bytes x.enc), by simp [Data.encLine], fun r => ?_⟩
    have e1 := fun x => rt_mailbox (r := 32 :: x) h.1.2 rfl
    have e2 := rt_metadataItems (r := r) h.2
    rw [responseDataInner]
    alt_at 2
    refine map_ok ?_
    rw [mailboxData]
    alt_at 7
    rw [gate_on h.1.1]
    simp [metadataResp, tagNC, sp_cons, e1, e2, Data.norm]
  | vanished e s =>
    simp only [Data.valid, Bool.and_eq_true] at h
    have e1 := fun r => rt_sequenceSet (r := 13 :: r) (s := s) h.2 rfl
    refine ⟨b!"VANISHED" ++ ((if e then b!" (EARLIER)" else []) ++ 32 :: bytes (encSet s)), by cases e <;> simp [Data.encLine], fun r => ?_⟩
    rw [responseDataInner]
    alt_at 3
    refine map_ok ?_
    rw [messageData]
    alt_at 1
    rw [gate_on h.1]
    cases e with
    | true => simp [vanishedData, tagNC, opt, sp_cons, e1, Data.norm]
    | false =>
      obtain ⟨b, bs, h1, h2⟩ := encSet_head (s := s) h.2
      have hb : b ≠ 40 := by
        rintro rfl
        revert h2
        decide
      have e2 := e1 r
      rw [h1] at e2
      simp only [List.cons_append] at e2
      have key : ∀ b : UInt8, b ≠ 40 → (lower b == lower 40) = false := forall_byte (by decide)
      have e3 : opt (tagNC b!" (EARLIER)") (32 :: b :: (bs ++ 13 :: r)) = .ok (32 :: b :: (bs ++ 13 :: r)) none := by
        have k := key b hb
        simp [opt, tagNC, lower] at k ⊢
        rw [if_neg (fun h => k h.symm)]
      have e4 : tagNC b!"VANISHED" (b!"VANISHED" ++ 32 :: b :: (bs ++ 13 :: r)) = .ok (32 :: b :: (bs ++ 13 :: r)) () := tagNC_append _ _
      simp only [List.cons_append, List.nil_append] at e4
      simp [vanishedData, h1, e4, e3, sp_cons, e2, Data.norm]
  | namespace_ p o s =>
    simp only [Data.valid, Bool.and_eq_true] at h
    refine ⟨b!"NAMESPACE " ++ (bytes (encNamespaces p) ++ 32 :: (bytes (encNamespaces o) ++ 32 :: bytes (encNamespaces s))),
      by simp [Data.encLine], fun r => ?_⟩
    rw [responseDataInner]
    alt_at 2
    refine map_ok ?_
    rw [mailboxData]
    alt_at 8
    rw [gate_on h.1.1.1]
    simp [namespaceResponse, tagNC, sp_cons, rt_namespaces h.1.1.2, rt_namespaces h.1.2, rt_namespaces h.2, Data.norm]

/-! ### Responses -/

theorem rt_responseData {y r : Bytes} {v : Response} (h : ∀ r, responseDataInner (y ++ 13 :: 10 :: r) = .ok (13 :: 10 :: r) v) :
    response (b!"* " ++ y ++ b!"\r\n" ++ r) = .ok r v := by
  have e : responseData (b!"* " ++ y ++ b!"\r\n" ++ r) = .ok r v := by
    simp [responseData, tag, h, rt_crlf]
  unfold response
  split
  · alt_at 2
    exact e
  · alt_at 1
    exact e

theorem emptyContinueReq_space (x : Bytes) : emptyContinueReq (43 :: 32 :: x) = .error := by
  cases h : Quirks.crlfRelaxed <;> simp [emptyContinueReq, crlf, tag, opt, char, h]

/-- The round trip of responses. -/
theorem rt_response {v : Response} {r : Bytes} (h : v.valid = true) (hm : v.noModSeq = true) :
    response (bytes v.enc ++ r) = .ok r v.norm := by
  cases v with
  | continue_ c =>
    have e := rt_continueReq (r := r) (c := c) h
    unfold response
    split
    · refine Eq.trans (alt_skip ?_) (alt_hit (map_ok e))
      have : ∃ x, bytes c.enc ++ r = 43 :: 32 :: x := by
        cases c with
        | basic c t => exact ⟨_, rfl⟩
        | base64 d => exact ⟨_, rfl⟩
      obtain ⟨x, hx⟩ := this
      show (_ <$> emptyContinueReq) (bytes c.enc ++ r) = _
      simp [hx, emptyContinueReq_space]
    · exact alt_hit (map_ok e)
  | data d =>
    obtain ⟨y, hy, e⟩ := rt_dataLine (d := d) h hm
    have := rt_responseData (r := r) (fun r => e (10 :: r))
    simpa [Response.enc, Data.enc, hy, Response.norm] using this
  | status s =>
    cases s with
    | untagged k c t =>
      have e := fun r => rt_respCondState (k := k) (r := r) h
      have := rt_responseData (y := k.name ++ 32 :: bytes (encRespText c t)) (r := r) (v := .status (.untagged k (c.map Code.norm) t))
        (fun r => ?_)
      · simpa [Response.enc, Status.enc, Response.norm, Status.norm] using this
      · rw [responseDataInner, List.append_assoc]
        exact alt_hit (map_ok (f := fun x : StatusKind × Option Code × Bytes => Response.status (.untagged x.1 x.2.1 x.2.2)) (e r))
    | bye c t =>
      have e := fun r => rt_respCondBye (r := r) h
      have := rt_responseData (y := b!"BYE" ++ 32 :: bytes (encRespText c t)) (r := r) (v := .status (.bye (c.map Code.norm) t))
        (fun r => ?_)
      · simpa [Response.enc, Status.enc, Response.norm, Status.norm] using this
      · rw [responseDataInner, List.append_assoc]
        alt_at 1
        exact map_ok (f := fun x : Option Code × Bytes => Response.status (.bye x.1 x.2)) (e r)
    | tagged g k c t =>
      simp only [Response.valid, Status.valid, Bool.and_eq_true] at h
      have e1 := rt_respCondState (k := k) (r := r) h.2
      have e2 := rt_tagImap (r := 32 :: (k.name ++ 32 :: (bytes (encRespText c t) ++ 13 :: 10 :: r))) h.1 rfl
      have e3 : responseDone (g ++ 32 :: (k.name ++ 32 :: (bytes (encRespText c t) ++ 13 :: 10 :: r))) =
          .ok r (.tagged g k (c.map Code.norm) t) := by
        refine alt_hit ?_
        simp [responseTagged, e2, sp_cons, e1, rt_crlf]
      have e4 : bytes (Response.status (.tagged g k c t)).enc ++ r =
          g ++ 32 :: (k.name ++ 32 :: (bytes (encRespText c t) ++ 13 :: 10 :: r)) := by
        simp [Response.enc, Status.enc]
      rw [e4]
      obtain ⟨b, bs, rfl⟩ : ∃ b bs, g = b :: bs := by
        cases g with
        | nil => simp [isTagStr] at h
        | cons b bs => exact ⟨b, bs, rfl⟩
      have hb : isTagChar b = true := by
        have := h.1
        simp [isTagStr] at this
        exact this.1
      have k1 : ∀ b, isTagChar b = true → (43 == b) = false ∧ (42 == b) = false := forall_byte (by decide)
      have := k1 b hb
      simp only [beq_eq_false_iff_ne, ne_eq] at this
      rw [List.cons_append] at e3 ⊢
      have a1 (x) : emptyContinueReq (b :: x) = .error := by
        simp [emptyContinueReq, tag, this.1]
      have a2 (x) : continueReq (b :: x) = .error := by
        simp [continueReq, mapRes, continueInner, tag, this.1]
      have a3 (x) : responseData (b :: x) = .error := by
        simp [responseData, tag, this.2]
      unfold response
      split
      · refine Eq.trans (alt_skip ?_) (Eq.trans (alt_skip ?_) (Eq.trans (alt_skip (a3 _)) (alt_hit (map_ok e3))))
        · simp [a1]
        · simp [a2]
      · refine Eq.trans (alt_skip ?_) (Eq.trans (alt_skip (a3 _)) (alt_hit (map_ok e3)))
        simp [a2]

end Imap
