import Verif.GrammarServerStructure
import Verif.Props.Names
/-
Parsers and grammars: the items of FETCH.
-/
set_option maxRecDepth 10000

namespace Imap.Gr

open Imap.Grammar (G Star choice onlyIf optD sepBy1 sepBy0 such token octets named lit is plus)

/-! ### Flags -/

/-- Flags with a backslash. -/
def fetchSystem (s : Bytes) : FlagFetch := if lowerAll s = b!"recent" then .recent else .flag (Flag.system s)

theorem fetchSystem_recognises : Spec.Recognises Grammar.Server.fetchFlagNames (fun s => .flag (.extension s)) fetchSystem := by
  intro a
  obtain ⟨h1, h2⟩ := C28_flag a
  constructor
  · intro x hx e
    simp only [Grammar.Server.fetchFlagNames, List.mem_cons, List.mem_map] at hx
    rcases hx with rfl | ⟨y, hy, rfl⟩
    · exact if_pos e
    · have hne : lowerAll a ≠ b!"recent" := by
        intro e'
        have : ∀ y ∈ Spec.flagNames, y.1 ≠ b!"recent" := by decide
        exact this y hy (e.symm.trans e')
      rw [fetchSystem, if_neg hne, h1 y hy e]
  · intro h
    rw [fetchSystem, if_neg (h (b!"recent", .recent) (List.mem_cons_self ..)), h2]
    intro x hx
    exact h (x.1, .flag x.2) (List.mem_cons_of_mem _ (List.mem_map.2 ⟨x, hx, rfl⟩))

theorem flagFetch_eq : flagFetch = alt [do char 92; fetchSystem <$> atom, (fun s => .flag (.keyword s)) <$> atom] := by
  funext x
  unfold flagFetch recognize
  have hs : ∀ (F : Bytes → Flag), (FlagFetch.flag <$> (F <$> atom : P Flag) : P FlagFetch) = (fun s => .flag (F s)) <$> atom := by
    intro F
    funext x
    simp only [P.map_apply]
    cases atom x <;> rfl
  rw [show (char 92 >>= fun _ => fetchSystem <$> atom) = (fetchSystem <$> (char 92 >>= fun _ => atom) : P FlagFetch) from map_bind_word.symm]
  cases h : (char 92 >>= fun _ => atom) x with
  | ok r a =>
    have hx : x = 92 :: a ++ r := by
      rw [P.bind_apply, Res.andThen_eq_ok] at h
      obtain ⟨r1, _, h1, h2⟩ := h
      obtain ⟨e, -⟩ := exists_of_takeWhile1 h2
      cases x with
      | nil => simp [char] at h1
      | cons b x =>
        rw [char] at h1
        split at h1
        · rename_i hb
          cases h1
          rw [hb, e]
          rfl
        · cases h1
    have ht : x.take (x.length - r.length) = 92 :: a := by
      rw [hx, show (92 :: a ++ r).length - r.length = (92 :: a).length by simp; omega]
      exact List.take_left' rfl
    rw [Res.andThen_ok, ht]
    simp only []
    rw [show b!"\\recent" = 92 :: b!"recent" from rfl, eqIC_cons, alt_cons, orElse_ok (show (fetchSystem <$> (char 92 >>= fun _ => atom) : P FlagFetch) x = .ok r (fetchSystem a) by
      rw [P.map_apply, h]; rfl)]
    by_cases he : eqIC a b!"recent" = true
    · rw [if_pos he, fetchSystem, if_pos (by rw [eqIC_iff] at he; exact he)]
    · rw [if_neg he, fetchSystem, if_neg (by rw [eqIC_iff] at he; exact he), P.map_apply, flag, alt_cons,
        orElse_ok (show (Flag.system <$> (char 92 >>= fun _ => atom) : P Flag) x = .ok r (Flag.system a) by rw [P.map_apply, h]; rfl)]
      rfl
  | error =>
    have h1 : (Flag.system <$> (char 92 >>= fun _ => atom) : P Flag) x = .error := by rw [P.map_apply, h]; rfl
    have h2 : (fetchSystem <$> (char 92 >>= fun _ => atom) : P FlagFetch) x = .error := by rw [P.map_apply, h]; rfl
    simp only [Res.andThen_error]
    rw [P.map_apply, flag, alt_cons, orElse_error h1, alt_cons, alt_cons (p := (fetchSystem <$> (char 92 >>= fun _ => atom) : P FlagFetch)), orElse_error h2, alt_cons]
    simp only [orElse, P.map_apply]
    cases atom x <;> rfl
  | incomplete =>
    simp only [Res.andThen]
    rw [P.map_apply, flag, alt_cons, alt_cons, alt_cons (p := (fetchSystem <$> (char 92 >>= fun _ => atom) : P FlagFetch))]
    simp only [orElse, P.map_apply, h]
    rfl
  | failure k =>
    simp only [Res.andThen]
    rw [P.map_apply, flag, alt_cons, alt_cons, alt_cons (p := (fetchSystem <$> (char 92 >>= fun _ => atom) : P FlagFetch))]
    simp only [orElse, P.map_apply, h]
    rfl

theorem fits_flagFetch {S : List UInt8} (hS : outside isAtomChar S = true) : Fits flagFetch Grammar.Server.flagFetch S := by
  rw [flagFetch_eq, Grammar.Server.flagFetch]
  exact Fits.alt_cons (Fits.word inferInstance (fits_named fetchSystem_recognises hS)) (Fits.alt_one (Fits.map (fits_atom hS)))
    (hb := Begs.of _ inferInstance) (by decide +kernel)

instance : Errs flagFetch flagHeads := Errs.mono (E := [b!"\\"] ++ allOf isAtomChar) (by rw [flagFetch_eq]; infer_instance) (by simp [flagHeads])
instance : Begs0 Grammar.Server.flagFetch flagHeads :=
  Begs0.mono (B := [b!"\\"] ++ (allOf isAtomChar ++ [])) (by unfold Grammar.Server.flagFetch; infer_instance) (by simp [flagHeads])

theorem fits_flagFetchList {S : List UInt8} : Fits flagFetchList (Grammar.parens (sepBy0 Grammar.sp Grammar.Server.flagFetch)) S :=
  Fits.parens0 (S1 := b!" )") (ListOk.mk' (hk := fun _ => Begs.pure _) (by decide +kernel) (by decide +kernel) (by decide +kernel))
    (fits_flagFetch (by decide)) (by decide +kernel)

/-! ### Items -/

section
variable [q : Quirks]

/-- The items of FETCH that change. -/
def gDynamic : G MessageDataItem := choice [
  .flags <$> do lit b!"FLAGS "; Grammar.parens (sepBy0 Grammar.sp Grammar.Server.flagFetch),
  onlyIf q.extCondstoreQresync (.modSeq <$> do lit b!"MODSEQ "; Grammar.parens Grammar.modSequenceValue)]

/-- `"BODY" section ["<" number ">"] SP nstring`. -/
def gBodyExt : G MessageDataItem := do
  lit b!"BODY"
  let s ← Grammar.section
  let o ← Grammar.opt (do lit b!"<"; let n ← Grammar.number; lit b!">"; return n)
  Grammar.sp
  let d ← Grammar.nstring
  return .bodyExt s o d

/-- `"BINARY" section-binary SP (nstring / literal8)`. -/
def gBinary : G MessageDataItem := do lit b!"BINARY"; let s ← Grammar.sectionBinary; Grammar.sp; let v ← Grammar.imapValue; return .binary s v

/-- `"BINARY.SIZE" section-binary SP number`. -/
def gBinarySize : G MessageDataItem := do lit b!"BINARY.SIZE"; let s ← Grammar.sectionBinary; Grammar.sp; let n ← Grammar.number; return .binarySize s n

/-- The items of FETCH that do not change. -/
def gStatic : G MessageDataItem := choice [
  .envelope <$> do lit b!"ENVELOPE "; Grammar.Server.envelope,
  .internalDate <$> do lit b!"INTERNALDATE "; Grammar.dateTime,
  .rfc822Header <$> do lit b!"RFC822.HEADER "; Grammar.nstring,
  .rfc822Text <$> do lit b!"RFC822.TEXT "; Grammar.nstring,
  .rfc822Size <$> do lit b!"RFC822.SIZE "; Grammar.number,
  .rfc822 <$> do lit b!"RFC822 "; Grammar.nstring,
  .bodyStructure <$> do lit b!"BODYSTRUCTURE "; Grammar.Server.body,
  .body <$> do lit b!"BODY "; Grammar.Server.body,
  gBodyExt,
  .uid <$> do lit b!"UID "; Grammar.nzNumber,
  gBinary,
  gBinarySize]

theorem msgAttItem_iff (w : Bytes) (v : MessageDataItem) : Grammar.Server.msgAttItem w v ↔ choice [gDynamic, gStatic] w v := by
  simp only [Grammar.Server.msgAttItem, gDynamic, gStatic, choice_cons, choice_nil, or_false, or_assoc]
  rfl

instance : Begs0 Grammar.section [b!"["] := Begs0.bind _ _
instance : Begs0 Grammar.sectionBinary [b!"["] := Begs0.bind _ _
instance : Errs sectionBinary [b!"["] := Errs.bind _ _

instance : Begs0 gBodyExt [b!"BODY["] := Begs0.lit_bind (B := [b!"["]) _ _
instance : Begs0 gBinary [b!"BINARY["] := Begs0.lit_bind (B := [b!"["]) _ _
instance : Begs0 gBinarySize [b!"BINARY.SIZE"] := Begs0.bind _ _
instance : Errs msgBodyExt [b!"BODY"] := Errs.bind _ _

instance errs_binary : Errs (do tagNC b!"BINARY"; let s ← sectionBinary; sp; let v ← imapValue; return MessageDataItem.binary s v) [b!"BINARY["] := Errs.tagNC_bind (E := [b!"["]) _ _

theorem fits_dynamic {S : List UInt8} : Fits msgAttDynamic gDynamic S := by
  refine Fits.alt_cons (Fits.map (Fits.word inferInstance fits_flagFetchList)) (Fits.alt_one (Fits.gate (Fits.map (Fits.word inferInstance ?_))))
    (hb := Begs.of _ inferInstance) (by decide +kernel)
  exact Fits.parens (fits_modSequenceValue (by decide))

theorem fits_msgBodyExt : Fits msgBodyExt gBodyExt S0 := by
  refine Fits.word inferInstance ?_
  refine Fits.bind (S1 := b!"< ") fits_section (fun s => ?_) (hk := fun _ => Begs.opt_bind _ _ (h' := Begs.of _ inferInstance)) (by decide +kernel)
  have hn : ∀ o, Fits (do sp; let d ← nstring; return MessageDataItem.bodyExt s o d) (do Grammar.sp; let d ← Grammar.nstring; return .bodyExt s o d) S0 :=
    fun o => Fits.word inferInstance (Fits.bind (S1 := S0) fits_nstring (fun _ => Fits.pure) (by decide +kernel))
  refine Fits.opt (S1 := b!" ") ?_ (fun a => hn _) (hn _) (hk := fun _ => Begs.of _ inferInstance) (by decide +kernel) (hb := Begs.of _ inferInstance) (by decide +kernel)
  exact Fits.word inferInstance (Fits.bind (S1 := b!">") (fits_number (by decide)) (fun n => Fits.word inferInstance Fits.pure) (by decide +kernel))

theorem fits_static : Fits msgAttStatic gStatic S0 := by
  unfold msgAttStatic gStatic
  refine Fits.alt_cons (Fits.map (Fits.word inferInstance fits_envelope)) ?_ (by decide +kernel)
  refine Fits.alt_cons (Fits.map (Fits.word inferInstance fits_dateTime.fits)) ?_ (by decide +kernel)
  refine Fits.alt_cons (Fits.map (Fits.word inferInstance fits_nstring)) ?_ (by decide +kernel)
  refine Fits.alt_cons (Fits.map (Fits.word inferInstance fits_nstring)) ?_ (by decide +kernel)
  refine Fits.alt_cons (Fits.map (Fits.word inferInstance (fits_number (by decide)))) ?_ (by decide +kernel)
  refine Fits.alt_cons (Fits.map (Fits.word inferInstance fits_nstring)) ?_ (by decide +kernel)
  refine Fits.alt_cons (Fits.map (Fits.word inferInstance fits_body)) ?_ (by decide +kernel)
  refine Fits.alt_cons (Fits.map (Fits.word inferInstance fits_body)) ?_ (by decide +kernel)
  refine Fits.alt_cons fits_msgBodyExt ?_ (by decide +kernel)
  refine Fits.alt_cons (Fits.map (Fits.word inferInstance (fits_nzNumber (by decide)))) ?_ (by decide +kernel)
  refine Fits.alt_cons ?_ (Fits.alt_one ?_) (by decide +kernel)
  · exact Fits.word inferInstance (Fits.bind (S1 := b!" ") fits_sectionBinary (fun s => Fits.word inferInstance
      (Fits.bind (S1 := S0) fits_imapValue (fun v => Fits.pure) (by decide +kernel))) (by decide +kernel))
  · exact Fits.word inferInstance (Fits.bind (S1 := b!" ") fits_sectionBinary (fun s => Fits.word inferInstance
      (Fits.bind (S1 := S0) (fits_number (by decide)) (fun v => Fits.pure) (by decide +kernel))) (by decide +kernel))

/-- What the items begin with. -/
def itemHeads : List Bytes := [b!"FLAGS ", b!"MODSEQ ", b!"ENVELOPE ", b!"INTERNALDATE ", b!"RFC822.HEADER ", b!"RFC822.TEXT ", b!"RFC822.SIZE ",
  b!"RFC822 ", b!"BODYSTRUCTURE ", b!"BODY", b!"BODY ", b!"BODY[", b!"UID ", b!"BINARY[", b!"BINARY.SIZE", b!"BINARY.SIZE["]

instance : Errs (alt [msgAttDynamic, msgAttStatic]) itemHeads := Errs.mono (by unfold msgAttDynamic msgAttStatic; infer_instance) (by decide +kernel)
instance : Begs0 Grammar.Server.msgAttItem itemHeads := by
  have : Grammar.Server.msgAttItem = choice [gDynamic, gStatic] := by funext w v; exact propext (msgAttItem_iff w v)
  rw [this]
  exact Begs0.mono (by unfold gDynamic gStatic; infer_instance) (by decide +kernel)

theorem fits_msgAtt {S : List UInt8} : Fits msgAtt Grammar.Server.msgAtt S := by
  have h : Fits (alt [msgAttDynamic, msgAttStatic]) Grammar.Server.msgAttItem S0 := by
    have : Errs msgAttDynamic ([b!"FLAGS "] ++ [b!"MODSEQ "]) := by unfold msgAttDynamic; infer_instance
    have hb : Begs0 (choice [gStatic]) itemHeads := Begs0.mono (by unfold gStatic; infer_instance) (B := _) (by decide +kernel)
    refine Fits.iff ?_ msgAttItem_iff
    refine Fits.alt_cons fits_dynamic (Fits.alt_one fits_static) (hb := Begs.of _ (by unfold gStatic; infer_instance)) (by decide +kernel)
  unfold msgAtt Grammar.Server.msgAtt Grammar.parens
  refine Fits.word inferInstance ?_
  exact Fits.sepBy1 (S1 := b!" )") (ListOk.mk' (hk := fun _ => Begs.of _ inferInstance) (by decide +kernel) (by decide +kernel) (by decide +kernel))
    (h.mono (by decide)) fun l => Fits.word inferInstance Fits.pure

instance : Begs0 Grammar.Server.msgAtt [b!"("] := Begs0.parens _

end

end Imap.Gr
