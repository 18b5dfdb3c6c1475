import Verif.GrammarServerFetch
/-
Parsers and grammars: the data of the server.
-/
set_option maxRecDepth 10000

namespace Imap.Gr

open Imap.Grammar (G Star choice onlyIf optD sepBy1 sepBy0 such token octets named lit is plus)

variable {α β : Type}

/-! ### Threads -/

theorem twoOrMore_iff {g : G α} {w : Bytes} {l : List α} : Grammar.Server.twoOrMore g w l ↔ Star g w l ∧ 2 ≤ l.length := by
  constructor
  · rintro ⟨w1, _, a, rfl, h1, w2, _, l', rfl, ⟨w3, _, b, rfl, h3, w4, _, l4, rfl, h4, rfl, rfl⟩, rfl, rfl⟩
    rw [List.append_nil, List.append_nil]
    exact ⟨.cons h1 (.cons h3 h4), by simp⟩
  · rintro ⟨h, hl⟩
    cases h with
    | nil => simp at hl
    | cons h1 t =>
      cases t with
      | nil => simp at hl
      | cons h3 h4 =>
        exact ⟨_, _, _, rfl, h1, _, [], _, (List.append_nil _).symm, ⟨_, _, _, rfl, h3, _, [], _, (List.append_nil _).symm, h4, rfl, rfl⟩, rfl, rfl⟩

theorem Fits.many2 {S S1 : List UInt8} {B E : List Bytes} {p : P α} {g : G α} (hp : Fits p g S1) [hg : Begs0 g B] (hB : headsIn S1 B = true)
    (hS : headsIn S1 (S.map fun b => [b]) = true) (he : (∃ w v, g w v) → Errs p E) (hE : apart E (S.map fun b => [b]) = true) :
    Fits (Imap.many2 p) (Grammar.Server.twoOrMore g) S := by
  constructor
  · intro x r l h
    unfold Imap.many2 at h
    split at h
    · rename_i r' vs hm
      split at h
      · cases h
        obtain ⟨w, e, hs⟩ := sound_many0 hp.sound hm
        exact ⟨w, e, twoOrMore_iff.2 ⟨hs, by assumption⟩⟩
      · cases h
    · rename_i hne
      exact absurd h (hne _ _)
  · intro w l r h hr
    obtain ⟨h1, h2⟩ := twoOrMore_iff.1 h
    have he' : Errs p E := he (by
      cases h1 with
      | nil => simp at h2
      | cons ha _ => exact ⟨_, _, ha⟩)
    have hm : Fits (Imap.many0 p) (Star g) S := by
      have := Fits.many0 (f := fun l => (Pure.pure l : P (List α))) (k := fun l => (Pure.pure l : G (List α))) (S := S) hp (fun l => Fits.pure) hB hS hE
      simpa only [bind_pure] using this
    unfold Imap.many2
    rw [hm.complete h1 hr]
    simp only [h2, if_true]

theorem errs_threadList (n : Nat) : Errs (threadList (n + 1)) [b!"("] := by
  unfold threadList
  exact Errs.bind _ _

instance begs_threadList (n : Nat) : Begs0 (Grammar.Server.threadList n) [b!"("] := by
  cases n with
  | zero => exact Begs0.mono (B := []) (by unfold Grammar.Server.threadList; infer_instance) (by simp)
  | succ n => unfold Grammar.Server.threadList; infer_instance

instance : Begs0 (Grammar.Server.twoOrMore (Grammar.Server.threadList n)) [b!"("] := Begs0.bind _ _

theorem fits_threadList (n : Nat) {S : List UInt8} : Fits (threadList n) (Grammar.Server.threadList n) S := by
  induction n generalizing S with
  | zero =>
    unfold threadList Grammar.Server.threadList
    refine ⟨fun h => by simp at h, ?_⟩
    rintro w v r ⟨g, hg, -⟩
    simp at hg
  | succ n ih =>
    unfold threadList Grammar.Server.threadList
    refine Fits.parens ?_
    have h2 : Fits (many2 (threadList n)) (Grammar.Server.twoOrMore (Grammar.Server.threadList n)) b!")" := by
      refine Fits.many2 (S1 := b!"()") (E := [b!"("]) ih (by decide +kernel) (by decide +kernel) ?_ (by decide +kernel)
      rintro ⟨w, v, h⟩
      cases n with
      | zero =>
        unfold Grammar.Server.threadList at h
        obtain ⟨g, hg, -⟩ := h
        simp at hg
      | succ n => exact errs_threadList n
    refine Fits.alt_cons ?_ (Fits.alt_one (Fits.map h2)) (by decide +kernel)
    refine Fits.sepBy1 (S1 := b!" )") (ListOk.mk' (by decide +kernel) (by decide +kernel) (by decide +kernel)) (fits_nzNumber (by decide)) fun l => ?_
    exact Fits.optD (S1 := b!")") (Fits.word inferInstance h2) (fun _ => Fits.pure) Fits.pure (by decide +kernel) (he := Errs.bind _ _) (by decide +kernel)

instance : Errs (threadList 8) [b!"("] := errs_threadList 7

theorem fits_threadData : Fits threadData (do lit b!"THREAD"; optD [] (do Grammar.sp; plus (Grammar.Server.threadList 8))) T := by
  have h : Fits (many1 (threadList 8)) (plus (Grammar.Server.threadList 8)) T := by
    have := Fits.many1 (S := T) (S1 := b!"(\r\n") (f := fun l => (pure l : P (List Thread))) (k := fun l => (pure l : G (List Thread))) (fits_threadList 8)
      (fun l => Fits.pure) (by decide +kernel) (by decide +kernel) (by decide +kernel)
    simpa only [bind_pure] using this
  unfold threadData
  rw [← bind_pure (optD [] (do Grammar.sp; plus (Grammar.Server.threadList 8)))]
  exact Fits.word inferInstance (Fits.optD (S1 := T) (Fits.word inferInstance h) (fun l => Fits.pure) Fits.pure (by decide +kernel) (by decide +kernel))

/-! ### Delimiters -/

theorem choice_two (g g' : G α) (w : Bytes) (v : α) : choice [g, g'] w v ↔ g w v ∨ g' w v := by
  simp only [choice_cons, choice_nil, or_false]

/-- `QUOTED-CHAR`. -/
def gQuotedChar : G UInt8 := fun w c => (w = [c] ∧ Spec.TextChar c ∧ c ∉ b!"\"\\") ∨ (w = [92, c] ∧ c ∈ b!"\"\\")

theorem except_iff : ∀ b, isAnyTextCharExceptQuotedSpecials b = true ↔ Spec.TextChar b ∧ b ∉ b!"\"\\" := forall_byte (by decide +kernel)
theorem specials_iff : ∀ b, isQuotedSpecials b = true ↔ b ∈ b!"\"\\" := forall_byte (by decide)

theorem fits_quotedChar : FitsAny quotedChar gQuotedChar := by
  constructor
  · intro x r v h
    rcases exists_of_alt2 h with h | h
    · cases x with
      | nil => simp [satisfy] at h
      | cons b x =>
        rw [satisfy] at h
        split at h
        · rename_i hb
          cases h
          exact ⟨[_], rfl, .inl ⟨rfl, (except_iff _).1 hb⟩⟩
        · cases h
    · rw [P.bind_apply, Res.andThen_eq_ok] at h
      obtain ⟨r1, _, h1, h2⟩ := h
      obtain rfl := exists_of_tag h1
      cases r1 with
      | nil => simp [satisfy] at h2
      | cons b r1 =>
        rw [satisfy] at h2
        split at h2
        · rename_i hb
          cases h2
          exact ⟨[92, _], rfl, .inr ⟨rfl, (specials_iff _).1 hb⟩⟩
        · cases h2
  · rintro w v r (⟨rfl, h⟩ | ⟨rfl, h⟩)
    · have : satisfy isAnyTextCharExceptQuotedSpecials ([v] ++ r) = .ok r v := by
        simp only [List.cons_append, List.nil_append, satisfy, (except_iff v).2 h, if_true]
      rw [quotedChar, alt_cons, orElse_ok this]
    · have h0 : isAnyTextCharExceptQuotedSpecials 92 = false := by decide
      have h1 : satisfy isAnyTextCharExceptQuotedSpecials ([92, v] ++ r) = .error := by
        simp only [List.cons_append, satisfy, h0]
        rfl
      have h2 : (do tag b!"\\"; satisfy isQuotedSpecials) ([92, v] ++ r) = .ok r v := by
        rw [P.bind_apply, show ([92, v] ++ r : Bytes) = b!"\\" ++ (v :: r) from rfl, tag_append, Res.andThen_ok]
        simp only [satisfy, (specials_iff v).2 h, if_true]
      rw [quotedChar, alt_cons, orElse_error h1, alt_cons, orElse_ok h2]

theorem quoted_one {w : Bytes} {c : UInt8} : Grammar.quoted w [c] ↔ (do lit b!"\""; let c ← gQuotedChar; lit b!"\""; return c : G UInt8) w c := by
  constructor
  · rintro ⟨u, rfl, h⟩
    refine ⟨b!"\"", u ++ b!"\"", (), by simp, rfl, u, b!"\"", c, rfl, ?_, b!"\"", [], (), rfl, rfl, rfl, rfl⟩
    cases h with
    | plain hb h1 t => cases t; exact .inl ⟨rfl, hb, h1⟩
    | escaped hb t => cases t; exact .inr ⟨rfl, hb⟩
  · rintro ⟨w1, _, _, rfl, h1, u, _, c', rfl, h2, w3, _, _, rfl, h3, rfl, rfl⟩
    obtain rfl := symbol_eq (k := b!"\"") (by decide) h1
    obtain rfl := symbol_eq (k := b!"\"") (by decide) h3
    refine ⟨u, by simp, ?_⟩
    rcases h2 with ⟨rfl, h4, h5⟩ | ⟨rfl, h4⟩
    · exact .plain h4 h5 .nil
    · exact .escaped h4 .nil

theorem fits_delimiter {S : List UInt8} : Fits delimiter Grammar.Server.delimiter S := by
  have h : Fits delimiter (choice [some <$> (do lit b!"\""; let c ← gQuotedChar; lit b!"\""; return c), is b!"NIL" none]) S := by
    refine Fits.alt_cons (Fits.map ?_) (Fits.alt_one (Fits.is ⟨rfl⟩)) (he := Errs.map _ _ (h := Errs.bind _ _)) (hb := Begs.of _ inferInstance) (by decide +kernel)
    refine Fits.word (p := dquote) (k := b!"\"") ⟨by rw [dquote, char_eq, tag_symbols (by decide)]⟩ ?_
    refine Fits.bind (S1 := b!"\"") fits_quotedChar.fits (fun c => ?_) (hk := fun _ => Begs.of _ inferInstance) (by decide +kernel)
    exact Fits.word (p := dquote) (k := b!"\"") ⟨by rw [dquote, char_eq, tag_symbols (by decide)]⟩ Fits.pure
  refine h.iff fun w v => ?_
  refine Iff.trans (choice_two ..) (Iff.trans (or_congr ?_ Iff.rfl) (choice_two ..).symm)
  constructor
  · rintro ⟨c, rfl, h⟩
    exact ⟨c, quoted_one.1 h, rfl⟩
  · rintro ⟨c, h, rfl⟩
    exact ⟨c, rfl, quoted_one.2 h⟩

/-- What delimiters begin with. -/
def delimiterHeads : List Bytes := [b!"\"", b!"NIL"]

instance : Begs0 Grammar.Server.delimiter delimiterHeads := by
  refine ⟨?_⟩
  intro w v h
  rcases (choice_two ..).1 h with ⟨c, rfl, u, rfl, -⟩ | h
  · exact ⟨b!"\"", by decide, b!"\"", u ++ b!"\"", by simp, rfl⟩
  · obtain ⟨k, hk, hb⟩ := (inferInstance : Begs0 (is b!"NIL" (none : Option UInt8)) [b!"NIL"]).out h
    exact ⟨k, List.mem_cons_of_mem _ hk, hb⟩

section
variable [q : Quirks]

/-! ### Items of STATUS -/

theorem fits_statusAttVal : Fits statusAttVal Grammar.Server.statusAttVal b!" )" := by
  have h : Fits statusAttVal (choice [
      .messages <$> do lit b!"MESSAGES "; Grammar.number,
      .recent <$> do lit b!"RECENT "; Grammar.number,
      .uidNext <$> do lit b!"UIDNEXT "; Grammar.nzNumber,
      .uidValidity <$> do lit b!"UIDVALIDITY "; Grammar.nzNumber,
      .unseen <$> do lit b!"UNSEEN "; Grammar.number,
      .deletedStorage <$> do lit b!"DELETED-STORAGE "; Grammar.number64,
      .deleted <$> do lit b!"DELETED "; Grammar.number,
      onlyIf q.extCondstoreQresync (.highestModSeq <$> do lit b!"HIGHESTMODSEQ "; Grammar.modSequenceValzer)]) b!" )" := by
    unfold statusAttVal
    refine Fits.alt_cons (Fits.map (Fits.word inferInstance (fits_number (by decide)))) ?_ (by decide +kernel)
    refine Fits.alt_cons (Fits.map (Fits.word inferInstance (fits_number (by decide)))) ?_ (by decide +kernel)
    refine Fits.alt_cons (Fits.map (Fits.word inferInstance (fits_nzNumber (by decide)))) ?_ (by decide +kernel)
    refine Fits.alt_cons (Fits.map (Fits.word inferInstance (fits_nzNumber (by decide)))) ?_ (by decide +kernel)
    refine Fits.alt_cons (Fits.map (Fits.word inferInstance (fits_number (by decide)))) ?_ (by decide +kernel)
    refine Fits.alt_cons (Fits.map (Fits.word inferInstance (fits_number64 (by decide)))) ?_ (by decide +kernel)
    refine Fits.alt_cons (Fits.map (Fits.word inferInstance (fits_number (by decide)))) ?_ (by decide +kernel)
    exact Fits.alt_one (Fits.gate (Fits.map (Fits.word inferInstance (fits_number64 (by decide)))))
  refine h.iff fun w v => ?_
  simp only [Grammar.Server.statusAttVal, choice_cons, choice_nil, or_false]
  tauto

/-- What the items of STATUS begin with. -/
def statusValHeads : List Bytes := [b!"MESSAGES ", b!"RECENT ", b!"UIDNEXT ", b!"UIDVALIDITY ", b!"UNSEEN ", b!"DELETED-STORAGE ", b!"DELETED ", b!"HIGHESTMODSEQ "]

instance : Errs statusAttVal statusValHeads := Errs.mono (by unfold statusAttVal; infer_instance) (by decide +kernel)
instance : Begs0 Grammar.Server.statusAttVal statusValHeads := Begs0.mono (by unfold Grammar.Server.statusAttVal; infer_instance) (by decide +kernel)

theorem fits_statusItems {S : List UInt8} : Fits statusItems (do Grammar.sp; Grammar.parens (sepBy0 Grammar.sp Grammar.Server.statusAttVal)) S := by
  have hl : ListOk b!")" b!" )" sp statusAttVal b!" " Grammar.Server.statusAttVal (pure : List StatusDataItem → G (List StatusDataItem)) :=
    ListOk.mk' (hk := fun _ => Begs.pure _) (by decide +kernel) (by decide +kernel) (by decide +kernel)
  unfold Grammar.parens sepBy0
  exact Fits.word_split inferInstance (Fits.optD (S1 := b!")") (Fits.list hl fits_statusAttVal) (fun l => Fits.word inferInstance Fits.pure)
    (Fits.word inferInstance Fits.pure) (hk := fun a => Begs.of _ inferInstance) (hb := Begs.of _ inferInstance) (by decide +kernel) (by decide +kernel))

/-! ### Numbers -/

instance : Word (char 32) b!" " := ⟨sp_eq⟩
instance : Errs (do char 32; searchSortModSeq) [b!" ("] := Errs.sp_bind (E := [b!"("]) (fun _ => searchSortModSeq) (h := Errs.bind _ _)

/-- The modification sequence after numbers. -/
def gModSeq : G Nat := onlyIf q.extCondstoreQresync do lit b!" (MODSEQ "; let n ← Grammar.modSequenceValue; lit b!")"; return n

instance : Begs0 gModSeq [b!" (MODSEQ "] := Begs0.onlyIf _ _ (h := Begs0.bind _ _)

theorem fits_numbers {f : List NzU32 × Option Nat → P β} {k : List NzU32 × Option Nat → G β} {B : List Bytes} (hf : ∀ x, Fits (f x) (k x) T)
    [hk : ∀ x, Begs (k x) T B] (hB : headsIn b!" \r\n" B = true) (h1 : apart [b!" ("] B = true) (h2 : apart ((allOf isDigit).map fun e => b!" " ++ e) B = true) :
    Fits (searchNumbers >>= f) (Grammar.Server.numbers >>= k) T := by
  have e : (Grammar.Server.numbers >>= k) = (do
      let l ← Star (do Grammar.sp; Grammar.nzNumber)
      let m ← Grammar.opt gModSeq
      k (l, m)) := by
    simp only [Grammar.Server.numbers, gModSeq, bind_assoc, pure_bind]
  rw [e]
  simp only [searchNumbers, bind_assoc, pure_bind]
  refine Fits.many0 (S1 := b!" \r\n") (B' := [b!" (MODSEQ "] ++ B) (Fits.word inferInstance (fits_nzNumber (by decide))) (fun l => ?_) (by decide +kernel) ?_ ?_
  · refine Fits.opt (S1 := b!" \r\n") ?_ (fun m => hf _) (hf _) hB h1
    refine Fits.gate ?_
    exact Fits.word3 inferInstance inferInstance inferInstance
      (Fits.bind (S1 := b!")") (fits_modSequenceValue (by decide)) (fun n => Fits.word inferInstance Fits.pure) (by decide +kernel))
  · simp only [headsIn, List.all_append, Bool.and_eq_true] at *
    exact ⟨by decide, hB⟩
  · simp only [apart, List.all_append, Bool.and_eq_true, List.all_eq_true] at *
    intro e he
    refine ⟨?_, h2 e he⟩
    have : apart ((allOf isDigit).map fun e => b!" " ++ e) [b!" (MODSEQ "] = true := by decide +kernel
    simp only [apart, List.all_eq_true] at this
    exact this e he

/-! ### LIST -/

instance : Errs (FlagNameAttribute.ofAtom <$> (do char 92; atom)) [b!"\\"] := Errs.map _ _ (h := Errs.bind _ _)

theorem fits_mailboxList : Fits mailboxList Grammar.Server.mailboxList T := by
  unfold mailboxList Grammar.Server.mailboxList
  simp only [Grammar.parens, bind_assoc, pure_bind]
  refine Fits.word inferInstance ?_
  have hf : Fits (FlagNameAttribute.ofAtom <$> (do char 92; atom)) (do lit b!"\\"; named Spec.attributeNames .extension) b!" )" := by
    rw [map_bind_word]
    exact Fits.word inferInstance (fits_named C28_attribute (by decide))
  have hl : Fits mbxListFlags (sepBy1 Grammar.sp (do lit b!"\\"; named Spec.attributeNames .extension)) b!")" :=
    Fits.list (S1 := b!" )") (ListOk.mk' (by decide +kernel) (by decide +kernel) (E := [b!" \\"]) (he := Errs.sp_bind (E := [b!"\\"]) _) (by decide +kernel)) hf
  have he : Errs mbxListFlags [b!"\\"] := Errs.sepList1 _ _
  have tail : ∀ l : List FlagNameAttribute, Fits (do tag b!")"; sp; let d ← delimiter; sp; let m ← mailbox; return (l, d, m))
      (do lit b!")"; Grammar.sp; let d ← Grammar.Server.delimiter; Grammar.sp; let m ← Grammar.mailbox; return (l, d, m)) T := fun l =>
    Fits.word inferInstance (Fits.word inferInstance (Fits.bind (S1 := b!" ") fits_delimiter (fun d => Fits.word inferInstance
      (Fits.bind (S1 := T) (fits_mailbox (by decide)) (fun m => Fits.pure) (by decide +kernel))) (by decide +kernel)))
  unfold sepBy0
  exact Fits.optD (S1 := b!")") hl (fun l => tail l) (tail []) (by decide +kernel) (by decide +kernel)

/-! ### Namespaces -/

theorem fits_namespaceExt {S : List UInt8} : Fits namespaceExt (do
    Grammar.sp; let key ← Grammar.string; Grammar.sp; let values ← Grammar.parens (sepBy1 Grammar.sp Grammar.string); return ({ key, values } : NamespaceExt)) S := by
  unfold namespaceExt
  simp only [Grammar.parens, bind_assoc, pure_bind]
  refine Fits.word inferInstance (Fits.bind (S1 := b!" ") fits_string (fun k => Fits.word inferInstance (Fits.word inferInstance ?_))
    (hk := fun _ => Begs.of _ inferInstance) (by decide +kernel))
  exact Fits.sepBy1 (S1 := b!" )") (ListOk.mk' (hk := fun _ => Begs.of _ inferInstance) (by decide +kernel) (by decide +kernel) (by decide +kernel))
    fits_string fun l => Fits.word inferInstance Fits.pure

instance : Errs namespaceExt (stringHeads.map fun e => b!" " ++ e) := by unfold namespaceExt; infer_instance
instance : Errs namespaceDescr [b!"("] := Errs.bind _ _

/-- What namespaces begin with. -/
def namespacesHeads : List Bytes := [b!"NIL", b!"("]

instance : Begs0 Grammar.Server.namespaces namespacesHeads := Begs0.mono (by unfold Grammar.Server.namespaces; infer_instance) (by decide +kernel)

theorem fits_namespaces {S : List UInt8} : Fits namespaces Grammar.Server.namespaces S := by
  unfold namespaces Grammar.Server.namespaces
  refine Fits.alt_cons (Fits.is ⟨rfl⟩) (Fits.alt_one ?_) (he := Errs.value _ _ (h := Errs.tagNC)) (hb := Begs.of _ inferInstance) (by decide +kernel)
  have hd : ∀ {S : List UInt8}, Fits namespaceDescr (Grammar.parens (do
      let prefix_ ← Grammar.string
      Grammar.sp
      let delimiter ← Grammar.Server.delimiter
      let extensions ← Star (do
        Grammar.sp; let key ← Grammar.string; Grammar.sp; let values ← Grammar.parens (sepBy1 Grammar.sp Grammar.string); return ({ key, values } : NamespaceExt))
      return ({ prefix_, delimiter, extensions } : Namespace))) S := by
    intro S
    unfold namespaceDescr
    simp only [show ∀ g : G Namespace, Grammar.parens g = (do lit b!"("; let a ← g; lit b!")"; return a) from fun _ => rfl, bind_assoc, pure_bind]
    refine Fits.word inferInstance (Fits.bind (S1 := b!" ") fits_string (fun k => Fits.word inferInstance ?_) (hk := fun _ => Begs.of _ inferInstance) (by decide +kernel))
    refine Fits.bind (S1 := b!" )") fits_delimiter (fun k => ?_) (hk := fun _ => Begs.star_bind _ _ (h' := fun _ => Begs.of _ inferInstance)) (by decide +kernel)
    exact Fits.many0 (S1 := b!" )") fits_namespaceExt (fun _ => Fits.word inferInstance Fits.pure) (by decide +kernel)
      (hk := fun _ => Begs.of _ inferInstance) (by decide +kernel) (by decide +kernel)
  unfold Grammar.parens at hd ⊢
  exact Fits.word inferInstance (Fits.many1 (S1 := b!"()") hd (fun l => Fits.word inferInstance Fits.pure) (by decide +kernel)
    (hk := fun _ => Begs.of _ inferInstance) (by decide +kernel) (by decide +kernel))

/-! ### Quotas -/

theorem fits_quotaSp {S : List UInt8} {f : Unit → P β} {k : Unit → G β} {B : List Bytes} (hf : Fits (f ()) (k ()) S) [hk : Begs (k ()) S B]
    (hB : apart [b!" "] B = true) (hB' : headsIn (b!" 0123456789") B = true) : Fits (quotaSp >>= f) (Grammar.Server.quotaSp >>= k) S := by
  unfold quotaSp Grammar.Server.quotaSp
  split
  · have h2 : (value () (many1 sp) >>= f) = (many1 sp >>= fun _ => f ()) := by
      funext x
      simp only [value, P.bind_apply]
      cases many1 sp x <;> rfl
    simp only [h2, bind_assoc, pure_bind]
    exact Fits.many1 (S1 := b!" 0123456789") (Fits.lit inferInstance) (fun _ => hf) (by decide +kernel) hB' hB
  · exact Fits.word inferInstance hf

instance begs_quotaSp (f : Unit → G β) : Begs0 (Grammar.Server.quotaSp >>= f) [b!" "] := by
  unfold Grammar.Server.quotaSp
  split
  · exact Begs0.bind _ _ (h := Begs0.bind _ _)
  · exact Begs0.bind _ _

theorem fits_quotaResource : Fits quotaResource Grammar.Server.quotaResource b!" )" := by
  unfold quotaResource Grammar.Server.quotaResource
  refine Fits.bind (S1 := b!" ") (fits_named C28_resource (by decide)) (fun r => fits_quotaSp ?_ (by decide +kernel) (by decide +kernel)) (by decide +kernel)
  refine Fits.bind (S1 := b!" ") (fits_number64 (by decide)) (fun r => fits_quotaSp ?_ (by decide +kernel) (by decide +kernel)) (by decide +kernel)
  exact Fits.bind (S1 := b!" )") (fits_number64 (by decide)) (fun r => Fits.pure) (by decide +kernel)

instance : Errs quotaResource (allOf isAtomChar) := Errs.bind _ _

end

end Imap.Gr
