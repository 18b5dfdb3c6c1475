import Verif.GrammarServerSpec
import Verif.GrammarCommand
import Verif.Local
/-
Parsers and grammars: the parts of responses, except for the data of messages.
-/
set_option maxRecDepth 10000

namespace Imap.Gr

open Imap.Grammar (G Star choice onlyIf optD sepBy1 sepBy0 such token octets named lit is plus)
open Imap.Grammar (Server.except Server.twoOrMore Server.spIf)

variable {α β γ : Type}

/-! ### Capabilities -/

theorem named_iff {F : Bytes → α} {table : List (Bytes × α)} {other : Bytes → α} (h : Spec.Recognises table other F) {w : Bytes} {v : α} :
    named table other w v ↔ Spec.IsAtom w ∧ v = F w := by
  have hf := fits_named h (S := b!" ") (by decide)
  constructor
  · intro hn
    refine ⟨hn.1, ?_⟩
    have h1 := hf.complete hn (r := b!" ") ⟨32, [], rfl, by simp⟩
    have h2 := (fits_atom (S := b!" ") (by decide)).complete (w := w) (v := w) ⟨rfl, hn.1⟩ (r := b!" ") ⟨32, [], rfl, by simp⟩
    rw [P.map_apply, h2] at h1
    cases h1
    rfl
  · rintro ⟨ha, rfl⟩
    have h2 := (fits_atom (S := b!" ") (by decide)).complete (w := w) (v := w) ⟨rfl, ha⟩ (r := b!" ") ⟨32, [], rfl, by simp⟩
    obtain ⟨w', e, hw⟩ := hf.sound (x := w ++ b!" ") (r := b!" ") (v := F w) (by rw [P.map_apply, h2]; rfl)
    obtain rfl := List.append_cancel_right e
    exact hw

theorem splitOnce_first {pat x p r : Bytes} (h : splitOnce pat x = some (p, r)) (p' r' : Bytes) (e : x = p' ++ pat ++ r') :
    p.length ≤ p'.length := by
  induction x generalizing p p' with
  | nil =>
    simp only [splitOnce] at h
    split at h
    · cases h; simp
    · simp at h
  | cons b x ih =>
    simp only [splitOnce] at h
    split at h
    · cases h; simp
    · next hp =>
      obtain ⟨⟨l, r1⟩, h1, h2⟩ := Option.map_eq_some_iff.1 h
      cases h2
      cases p' with
      | nil =>
        exfalso
        apply hp
        rw [e]
        simp
      | cons c p' =>
        simp only [List.cons_append, List.cons.injEq] at e
        have := ih h1 p' e.2
        simpa using this

theorem splitOnce_iff {pat x p r : Bytes} : splitOnce pat x = some (p, r) ↔
    x = p ++ pat ++ r ∧ ∀ p' r', x = p' ++ pat ++ r' → p.length ≤ p'.length := by
  constructor
  · intro h
    exact ⟨splitOnce_eq h, splitOnce_first h⟩
  · rintro ⟨rfl, h⟩
    have hs := splitOnce_isSome pat p r
    rw [← List.append_assoc] at hs
    obtain ⟨⟨l, s⟩, hs⟩ := Option.isSome_iff_exists.1 hs
    have e := splitOnce_eq hs
    have h1 := h _ _ e
    have h2 := splitOnce_first hs _ _ rfl
    have hl : p.length = l.length := by omega
    rw [List.append_assoc, List.append_assoc] at e
    obtain ⟨rfl, e'⟩ := List.append_inj e hl
    rw [hs, List.append_cancel_left e']

theorem lower_append {a b : Bytes} : lowerAll (a ++ b) = lowerAll a ++ lowerAll b := by simp [lowerAll]

theorem capability_known [Quirks] {w : Bytes} {c : Capability} (h : (lowerAll w, c) ∈ Spec.capabilityNames) : Spec.IsAtom w ∧ c = Capability.ofAtom w := by
  refine ⟨?_, (C28_capability_partial w _ h rfl).symm⟩
  have key : ∀ x ∈ capabilityTable, isAtom x.1 = true := by decide +kernel
  have h1 := key _ (mem_capabilityNames.1 h).1
  have key2 : ∀ b : UInt8, isAtomChar (lower b) = true → isAtomChar b = true := forall_byte (by decide)
  refine (Spec.isAtom_iff w).1 ?_
  simp only [isAtom, lowerAll, Bool.and_eq_true, Bool.not_eq_true', List.isEmpty_eq_false_iff, ne_eq, List.map_eq_nil_iff,
    List.all_eq_true, List.mem_map, forall_exists_index, and_imp, forall_apply_eq_imp_iff₂] at h1 ⊢
  exact ⟨h1.1, fun b hb => key2 b (h1.2 b hb)⟩

theorem capability_parameter [Quirks] {w : Bytes} {c : Capability} (h : Grammar.Server.capabilityParameter w c) :
    c = Capability.ofAtom w ∧ ∀ a, c ≠ .other a := by
  obtain ⟨g, hg, hw⟩ := h
  simp only [List.mem_cons, List.not_mem_nil, or_false] at hg
  rcases hg with rfl | rfl | rfl | rfl
  · obtain ⟨m, ⟨w1, w2, _, rfl, h1, h2⟩, rfl⟩ := hw
    obtain ⟨ha, rfl⟩ := (named_iff C28_mechanism_partial).1 h2
    exact ⟨((C28_capability_parameter w1 w2 ha).1 h1).symm, by simp⟩
  · obtain ⟨m, ⟨w1, w2, _, rfl, h1, h2⟩, rfl⟩ := hw
    obtain ⟨ha, rfl⟩ := (named_iff C28_sort).1 h2
    exact ⟨((C28_capability_parameter w1 w2 ha).2.1 h1).symm, by simp⟩
  · obtain ⟨m, ⟨w1, w2, _, rfl, h1, h2⟩, rfl⟩ := hw
    obtain ⟨ha, rfl⟩ := (named_iff C28_thread).1 h2
    exact ⟨((C28_capability_parameter w1 w2 ha).2.2.1 h1).symm, by simp⟩
  · obtain ⟨m, ⟨w1, w2, _, rfl, h1, p, r, h2, h3, h4⟩, rfl⟩ := hw
    obtain ⟨ha, rfl⟩ := (named_iff C28_resource).1 h4
    obtain ⟨l, hl, e⟩ := ofAtom_pair (p := w1) (x := w2) (k := b!"quota") (by simp) h1
    refine ⟨?_, by simp⟩
    rw [e, Capability.ofPair, splitOnce_iff.2 ⟨h2, h3⟩]
    simp [hl, (Spec.isAtom_iff r).2 ha]

theorem capability_cases [Quirks] {w : Bytes} (ha : Spec.IsAtom w) : Capability.ofAtom w = .other w ∨
    (lowerAll w, Capability.ofAtom w) ∈ Spec.capabilityNames ∨ Grammar.Server.capabilityParameter w (Capability.ofAtom w) := by
  rw [Capability.ofAtom]
  split
  · next c hc =>
    have key : ∀ x ∈ Capability.fixed, x ∈ capabilityTable := by decide +kernel
    simp only [Option.filter_eq_some_iff] at hc
    exact .inr (.inl (mem_capabilityNames.2 ⟨key _ (lookup_mem hc.1), hc.2⟩))
  · split
    · next l r e =>
      obtain ⟨rfl⟩ := splitOnce_eq e
      have hlit : ∀ {k : Bytes}, lowerAll l = k → lowerAll (l ++ b!"=") = k ++ b!"=" := by
        intro k hk
        rw [lower_append, hk]; rfl
      have hp : ∀ {k : Bytes} {m : Capability} {g : G Capability}, lowerAll l = k → g r m → (lit (k ++ b!"=") >>= fun _ => g) (l ++ b!"=" ++ r) m := by
        intro k m g hk hg
        refine ⟨l ++ b!"=", r, (), rfl, ?_, hg⟩
        have hk' : lowerAll k = k := by
          rw [← hk]; simp [lowerAll, lower_lower]
        rw [Grammar.lit, lower_append, lower_append, hk, hk']
      unfold Capability.ofPair
      simp only
      split
      · next hl =>
        split
        · next hr =>
          refine .inr (.inr ⟨_, List.mem_cons_self .., ?_⟩)
          exact ⟨_, ⟨l ++ b!"=", r, (), rfl, (hlit hl).trans rfl, (named_iff C28_mechanism_partial).2 ⟨(Spec.isAtom_iff r).1 hr, rfl⟩⟩, rfl⟩
        · exact .inl rfl
      split
      · next hl =>
        split
        · next hr =>
          refine .inr (.inl ?_)
          simp only [Bool.and_eq_true, beq_iff_eq] at hr
          rw [lower_append, lower_append, hl, hr.2]
          show (b!"compress=deflate", Capability.compressDeflate) ∈ Spec.capabilityNames
          simp [Spec.capabilityNames, Spec.inBuild]
        · exact .inl rfl
      split
      · next hl =>
        split
        · next p x hs =>
          split
          · next hr =>
            refine .inr (.inr ⟨_, List.mem_cons_of_mem _ (List.mem_cons_of_mem _ (List.mem_cons_of_mem _ (List.mem_cons_self ..))), ?_⟩)
            obtain ⟨h1, h2⟩ := splitOnce_iff.1 hs
            exact ⟨_, ⟨l ++ b!"=", r, (), rfl, (hlit hl).trans rfl, p, x, h1, h2, (named_iff C28_resource).2 ⟨(Spec.isAtom_iff x).1 hr, rfl⟩⟩, rfl⟩
          · exact .inl rfl
        · exact .inl rfl
      split
      · next hl =>
        split
        · next hr =>
          refine .inr (.inr ⟨_, List.mem_cons_of_mem _ (List.mem_cons_self ..), ?_⟩)
          exact ⟨_, ⟨l ++ b!"=", r, (), rfl, (hlit hl).trans rfl, (named_iff C28_sort).2 ⟨(Spec.isAtom_iff r).1 hr, rfl⟩⟩, rfl⟩
        · exact .inl rfl
      split
      · next hl =>
        split
        · next hr =>
          refine .inr (.inr ⟨_, List.mem_cons_of_mem _ (List.mem_cons_of_mem _ (List.mem_cons_self ..)), ?_⟩)
          exact ⟨_, ⟨l ++ b!"=", r, (), rfl, (hlit hl).trans rfl, (named_iff C28_thread).2 ⟨(Spec.isAtom_iff r).1 hr, rfl⟩⟩, rfl⟩
        · exact .inl rfl
      · exact .inl rfl
    · exact .inl rfl

theorem capability_iff [Quirks] {w : Bytes} {v : Capability} : Grammar.Server.capability w v ↔ Spec.IsAtom w ∧ v = Capability.ofAtom w := by
  constructor
  · rintro (h | ⟨ha, h⟩ | ⟨ha, h1, h2, rfl⟩)
    · exact capability_known h
    · exact ⟨ha, (capability_parameter h).1⟩
    · refine ⟨ha, ?_⟩
      rcases capability_cases ha with h | h | h
      · exact h.symm
      · exact absurd (List.mem_map.2 ⟨_, h, rfl⟩) h1
      · exact absurd h (h2 _)
  · rintro ⟨ha, rfl⟩
    rcases capability_cases ha with h | h | h
    · refine .inr (.inr ⟨ha, ?_, ?_, h⟩)
      · intro hm
        obtain ⟨x, hx, e⟩ := List.mem_map.1 hm
        have h2 := C28_capability_partial w x hx e.symm
        have key : ∀ x ∈ capabilityTable, x.2 ≠ .other x.2.name := by decide +kernel
        rw [h] at h2
        exact key x (mem_capabilityNames.1 hx).1 (by rw [← h2]; rfl)
      · intro c hc
        obtain ⟨rfl, h2⟩ := capability_parameter hc
        exact h2 _ h
    · exact .inl h
    · exact .inr (.inl ⟨ha, h⟩)

theorem fits_capability [Quirks] {S : List UInt8} (hS : outside isAtomChar S = true) : Fits capability Grammar.Server.capability S := by
  refine Fits.iff (fits_atom hS).map fun w v => ?_
  rw [capability_iff]
  constructor
  · rintro ⟨ha, rfl⟩; exact ⟨w, ⟨rfl, ha⟩, rfl⟩
  · rintro ⟨a, ⟨rfl, ha⟩, rfl⟩; exact ⟨ha, rfl⟩

instance [Quirks] : Begs0 Grammar.Server.capability (allOf isAtomChar) := ⟨by
  intro w v h
  have hb : Begs0 Grammar.atom (allOf isAtomChar) := inferInstance
  exact hb.out (v := w) ⟨rfl, (capability_iff.1 h).1⟩⟩

instance [Quirks] : Errs capability (allOf isAtomChar) := Errs.map _ _

/-! ### Lists in parentheses -/

theorem Fits.parens {p : P α} {g : G α} {S : List UInt8} (h : Fits p g b!")") :
    Fits (do tag b!"("; let a ← p; tag b!")"; return a) (Grammar.parens g) S := by
  unfold Grammar.parens
  exact Fits.word inferInstance (Fits.bind (S1 := b!")") h (fun a => Fits.word inferInstance Fits.pure) (by decide +kernel)
    (hk := fun a => Begs.of _ inferInstance))

/-- A list that may be empty. -/
theorem Fits.parens0 {S1 S : List UInt8} {p : P α} {g : G α} {E : List Bytes} (hl : ListOk b!")" S1 Imap.sp p b!" " g (Pure.pure : List α → G (List α)))
    (hp : Fits p g S1) [he : Errs p E] (hE : apart E [b!")"] = true) :
    Fits (do tag b!"("; let l ← Imap.opt (sepList1 Imap.sp p); tag b!")"; return l.getD []) (Grammar.parens (Grammar.sepBy0 Grammar.sp g)) S := by
  unfold Grammar.parens Grammar.sepBy0
  exact Fits.word inferInstance (Fits.optD (S1 := b!")") (Fits.list hl hp) (fun l => Fits.word inferInstance Fits.pure)
    (Fits.word inferInstance Fits.pure) (hk := fun a => Begs.of _ inferInstance) (hb := Begs.of _ inferInstance) (by decide +kernel) hE)

/-- The last alternative has alternatives. -/
theorem Fits.alt_alt {ps : List (P α)} {g : G α} {S : List UInt8} (h : Fits (alt ps) g S) : Fits (alt [alt ps]) g S := by
  refine h.congr ?_ rfl
  funext x
  rw [Imap.alt_cons]
  unfold orElse
  split
  · next h => rw [h]; rfl
  · rfl

/-! ### Codes -/

theorem fits_uidElement : Fits (alt [uidRange, .single <$> nzNumber])
    (choice [.single <$> Grammar.nzNumber, do let a ← Grammar.nzNumber; lit b!":"; let b ← Grammar.nzNumber; return UidElement.range a b]) b!", ]" := by
  have hr : Fits uidRange (do let a ← Grammar.nzNumber; lit b!":"; let b ← Grammar.nzNumber; return UidElement.range a b) b!", ]" := by
    unfold uidRange
    exact Fits.bind (S1 := b!":") (fits_nzNumber (by decide)) (fun a => Fits.word inferInstance
      (Fits.bind (S1 := b!", ]") (fits_nzNumber (by decide)) (fun b => Fits.pure) (by decide +kernel))) (by decide +kernel)
  have hs : Fits (UidElement.single <$> nzNumber) (UidElement.single <$> Grammar.nzNumber) b!", ]" := Fits.map (fits_nzNumber (by decide))
  refine ⟨?_, ?_⟩
  · intro x r v e
    rcases exists_of_alt2 e with h | h
    · obtain ⟨w, rfl, hw⟩ := hr.sound h
      exact ⟨w, rfl, _, by simp, hw⟩
    · obtain ⟨w, rfl, hw⟩ := hs.sound h
      exact ⟨w, rfl, _, List.mem_cons_self .., hw⟩
  · rintro w v r ⟨g, hg, hw⟩ h
    simp only [List.mem_cons, List.not_mem_nil, or_false] at hg
    rcases hg with rfl | rfl
    · have he : uidRange (w ++ r) = .error := by
        obtain ⟨a, ha, -⟩ := hw
        have := (fits_nzNumber (S := b!", ]") (by decide)).complete ha h
        obtain ⟨b, r', rfl, hb⟩ := h
        have hb' : b ≠ 58 := by rintro rfl; revert hb; decide
        rw [uidRange, P.bind_apply, this, Res.andThen_ok, P.bind_apply, Imap.tag, if_neg (by exact fun e => hb' e.symm)]
        rfl
      rw [alt_cons, orElse_error he, alt_cons, orElse_ok (hs.complete hw h)]
    · rw [alt_cons, orElse_ok (hr.complete hw h)]

instance : Errs uidRange (allOf isDigit) := Errs.bind _ _

theorem fits_uidSet : Fits uidSet Grammar.Server.uidSet b!" ]" :=
  Fits.list (ListOk.mk' (S1 := b!", ]") (by decide +kernel) (by decide +kernel) (by decide +kernel)) fits_uidElement

instance : Begs0 Grammar.Server.uidSet (allOf isDigit) :=
  Begs0.mono (B := allOf isDigit ++ (allOf isDigit ++ [])) (by unfold Grammar.Server.uidSet; infer_instance) (by simp)

instance : Word (tag b!"\\*") b!"\\*" := word_tag (by decide)

/-- What permanent flags begin with. -/
def flagPermHeads : List Bytes := [b!"\\*"] ++ flagHeads

instance : Begs0 Grammar.Server.flagPerm flagPermHeads :=
  Begs0.mono (B := flagHeads ++ ([b!"\\*"] ++ [])) (by unfold Grammar.Server.flagPerm; infer_instance) (by simp [flagPermHeads, or_comm])

instance : Errs flagPerm flagPermHeads := by unfold flagPerm flagPermHeads; infer_instance

/-- A more precise variant. -/
theorem flag_begs : Begs0 Grammar.flag ((allOf isAtomChar).map (fun e => b!"\\" ++ e) ++ allOf isAtomChar) := by
  have h : Begs0 (do lit b!"\\"; named Spec.flagNames Flag.extension) ((allOf isAtomChar).map fun e => b!"\\" ++ e) := Begs0.lit_bind _ _
  exact Begs0.mono (B := (allOf isAtomChar).map (fun e => b!"\\" ++ e) ++ (allOf isAtomChar ++ [])) (by unfold Grammar.flag; infer_instance) (by simp)

theorem fits_flagPerm {S : List UInt8} (hS : outside isAtomChar S = true) : Fits flagPerm Grammar.Server.flagPerm S := by
  have h : Fits flagPerm (choice [is b!"\\*" FlagPerm.asterisk, .flag <$> Grammar.flag]) S := by
    have := flag_begs
    refine Fits.alt_cons (Fits.is inferInstance) (Fits.alt_one (Fits.map (fits_flag hS)))
      (hb := Begs.of _ (@Begs0.choice_cons _ _ _ _ _ (@Begs0.map _ _ _ _ _ flag_begs) _)) (by decide +kernel)
  refine h.iff fun w v => ?_
  simp only [Grammar.Server.flagPerm, choice_cons, choice_nil]
  tauto

theorem fits_charsetList : Fits charsetList (do lit b!" "; Grammar.parens (sepBy1 Grammar.sp Grammar.charset)) b!"]" := by
  simp only [charsetList, Grammar.parens]
  refine Fits.word_split inferInstance ?_
  exact Fits.sepBy1 (S1 := b!" )") (ListOk.mk' (E := charsetHeads.map fun e => b!" " ++ e) (he := by
      have : Errs charset charsetHeads := by unfold charset charsetHeads; infer_instance
      infer_instance) (by decide +kernel) (by decide +kernel) (by decide +kernel)) (fits_charset (by decide))
    fun l => Fits.word inferInstance Fits.pure

instance : Errs charsetList [b!" ("] := Errs.bind _ _

section
variable [q : Quirks]

theorem fits_spIf {b : Bool} {S : List UInt8} {f : Unit → P β} {k : Unit → G β} {B : List Bytes} (hf : Fits (f ()) (k ()) S) [hk : Begs (k ()) S B]
    (hB : apart [b!" "] B = true) : Fits (optSpIf b >>= f) (Grammar.Server.spIf b >>= k) S := by
  unfold optSpIf Grammar.Server.spIf
  cases b
  · simpa using hf
  · have h : (optD () Grammar.sp) = optD () (is b!" " ()) := by
      funext w v
      simp [optD, Grammar.sp, lit, is]
    have h2 : (value () (opt sp) >>= f) = (opt sp >>= fun _ => f ()) := by
      funext x
      simp only [value, P.bind_apply]
      cases opt sp x <;> rfl
    simp only [if_true, h, h2]
    exact Fits.optD_is inferInstance hf hf hB

omit q in
instance begs_spIf (b : Bool) {S : List UInt8} (f : Unit → G β) {B : List Bytes} [h : Begs (f ()) S B] :
    Begs (Grammar.Server.spIf b >>= f) S ((B.map fun e => b!" " ++ e) ++ B) := by
  unfold Grammar.Server.spIf
  cases b
  · refine ⟨fun hg hr => ?_⟩
    simp only [Bool.false_eq_true, if_false, pure_bind] at hg
    obtain ⟨k, hk, hb⟩ := h.out hg hr
    exact ⟨k, by simp [hk], hb⟩
  · exact Begs.optD_sp_bind f

theorem fits_capabilityData : Fits capabilityData Grammar.Server.capabilityData b!"]\r\n" := by
  have e : capabilityData = (do tagNC b!"CAPABILITY "; let l ← sepList1 sp capability; optSpIf q.trailingSpaceCapability; return l) := by
    unfold capabilityData optSpIf
    cases q.trailingSpaceCapability
    · simp
    · simp [value]
  rw [e]
  unfold Grammar.Server.capabilityData
  refine Fits.word inferInstance ?_
  exact Fits.sepBy1 (S1 := b!" ]\r\n") (ListOk.mk' (by decide +kernel) (by decide +kernel) (by decide +kernel)) (fits_capability (by decide))
    fun l => fits_spIf Fits.pure (by decide +kernel)

omit q in
theorem fits_metadataCode : Fits metadataCode (choice [.longEntries <$> (do lit b!"LONGENTRIES "; Grammar.number),
    .maxSize <$> (do lit b!"MAXSIZE "; Grammar.number), is b!"TOOMANY" .tooMany, is b!"NOPRIVATE" .noPrivate]) b!"]" := by
  unfold metadataCode
  refine Fits.alt_cons (Fits.map (Fits.word inferInstance (fits_number (by decide)))) ?_ (by decide +kernel)
  refine Fits.alt_cons (Fits.map (Fits.word inferInstance (fits_number (by decide)))) ?_ (by decide +kernel)
  keywords

instance : Begs0 Grammar.Server.capabilityData [b!"CAPABILITY "] := Begs0.bind _ _
instance : Errs capabilityData [b!"CAPABILITY "] := Errs.bind _ _
instance : Errs respCodeApnd [b!"APPENDUID "] := Errs.bind _ _
instance : Errs respCodeCopy [b!"COPYUID "] := Errs.bind _ _

theorem fits_respTextCode : Fits respTextCode Grammar.Server.respTextCode b!"]" := by
  have hf : Fits flagPermList (Grammar.parens (sepBy0 Grammar.sp Grammar.Server.flagPerm)) b!"]" :=
    Fits.parens0 (S1 := b!" )") (ListOk.mk' (by decide +kernel) (by decide +kernel) (by decide +kernel)) (fits_flagPerm (by decide)) (by decide +kernel)
  unfold respTextCode Grammar.Server.respTextCode
  have nz : Fits nzNumber Grammar.nzNumber b!"]" := fits_nzNumber (by decide)
  refine Fits.alt_cons (Fits.is inferInstance) ?_ (by decide +kernel)
  refine Fits.alt_cons ?_ ?_ (by decide +kernel)
  · simp only [map_eq_pure_bind, bind_assoc]
    exact Fits.word inferInstance (Fits.optD fits_charsetList (fun l => Fits.pure) Fits.pure (by decide +kernel) (by decide +kernel))
  refine Fits.alt_cons (Fits.map (fits_capabilityData.mono (by decide))) ?_ (by decide +kernel)
  refine Fits.alt_cons (Fits.is inferInstance) ?_ (by decide +kernel)
  refine Fits.alt_cons (Fits.map (Fits.word inferInstance hf)) ?_ (by decide +kernel)
  refine Fits.alt_cons (Fits.is inferInstance) ?_ (by decide +kernel)
  refine Fits.alt_cons (Fits.is inferInstance) ?_ (by decide +kernel)
  refine Fits.alt_cons (Fits.is inferInstance) ?_ (by decide +kernel)
  refine Fits.alt_cons (Fits.map (Fits.word inferInstance nz)) ?_ (by decide +kernel)
  refine Fits.alt_cons (Fits.map (Fits.word inferInstance nz)) ?_ (by decide +kernel)
  refine Fits.alt_cons (Fits.map (Fits.word inferInstance nz)) ?_ (by decide +kernel)
  refine Fits.alt_cons (Fits.is inferInstance) ?_ (by decide +kernel)
  refine Fits.alt_cons (Fits.is inferInstance) ?_ (by decide +kernel)
  refine Fits.alt_cons (Fits.is inferInstance) ?_ (by decide +kernel)
  refine Fits.alt_cons (Fits.gate (Fits.map (Fits.word inferInstance fits_metadataCode))) ?_ (by decide +kernel)
  refine Fits.alt_cons (Fits.is inferInstance) ?_ (by decide +kernel)
  refine Fits.alt_cons ?_ ?_ (by decide +kernel)
  · exact Fits.word inferInstance (Fits.bind (S1 := b!" ") (fits_nzNumber (by decide)) (fun v => Fits.word inferInstance
      (Fits.bind (S1 := b!"]") nz (fun u => Fits.pure) (by decide +kernel))) (by decide +kernel))
  refine Fits.alt_cons ?_ ?_ (by decide +kernel)
  · exact Fits.word inferInstance (Fits.bind (S1 := b!" ") (fits_nzNumber (by decide)) (fun v => Fits.word inferInstance
      (Fits.bind (S1 := b!" ") (fits_uidSet.mono (by decide)) (fun s => Fits.word inferInstance
        (Fits.bind (S1 := b!"]") (fits_uidSet.mono (by decide)) (fun d => Fits.pure) (by decide +kernel))) (by decide +kernel))) (by decide +kernel))
  refine Fits.alt_cons (Fits.is inferInstance) ?_ (by decide +kernel)
  refine Fits.alt_one (Fits.gate ?_)
  refine Fits.alt_cons (Fits.map (Fits.word inferInstance (fits_modSequenceValue (by decide)))) ?_ (by decide +kernel)
  refine Fits.alt_cons (Fits.is inferInstance) ?_ (by decide +kernel)
  refine Fits.alt_cons (Fits.map (Fits.word inferInstance (fits_sequenceSet_code.mono (by decide)))) ?_ (by decide +kernel)
  keywords

end

end Imap.Gr
