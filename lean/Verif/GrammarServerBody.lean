import Verif.GrammarServerParts
import Verif.BodyLemmas
/-
Parsers and grammars: envelopes and body structures.
-/
set_option maxRecDepth 10000

namespace Imap.Gr

open Imap.Grammar (G Star choice onlyIf optD sepBy1 sepBy0 such token octets named lit is plus)

variable {α β γ : Type}

/-! ### More rules -/

theorem many1_bind (p : P α) (f : List α → P β) : (many1 p >>= f) = (p >>= fun a => (Imap.many0 p : P (List α)) >>= fun l => f (a :: l)) := by
  simp only [many1, bind_assoc, pure_bind]

theorem plus_bind (g : G α) (f : List α → G β) : (plus g >>= f) = (g >>= fun a => Star g >>= fun l => f (a :: l)) := by
  simp only [plus, bind_assoc, pure_bind]

theorem Fits.many1 {S S1 : List UInt8} {B B' E : List Bytes} {p : P α} {g : G α} {f : List α → P β} {k : List α → G β} (hp : Fits p g S1)
    (hf : ∀ l, Fits (f l) (k l) S) [hg : Begs0 g B] (hB : headsIn S1 B = true) [hk : ∀ l, Begs (k l) S B'] (hB' : headsIn S1 B' = true)
    [he : Errs p E] (hEB : apart E B' = true) : Fits (Imap.many1 p >>= f) (Grammar.plus g >>= k) S := by
  rw [many1_bind, plus_bind]
  refine Fits.bind (B := B ++ B') hp (fun a => Fits.many0 hp (fun l => hf _) hB hB' hEB) ?_
  simp only [headsIn, List.all_append, Bool.and_eq_true] at *
  exact ⟨hB, hB'⟩

section
variable [q : Quirks]

/-! ### Envelopes -/

/-- `address` without spaces. -/
def gAddressParen : G Address := do
  lit b!"("
  let name ← Grammar.nstring
  Grammar.sp
  let adl ← Grammar.nstring
  Grammar.sp
  let mailbox ← Grammar.nstring
  Grammar.sp
  let host ← Grammar.nstring
  lit b!")"
  return ⟨name, adl, mailbox, host⟩

theorem fits_addressParen {S : List UInt8} : Fits addressParen gAddressParen S :=
  Fits.word inferInstance
    (Fits.bind (S1 := b!" ") fits_nstring (fun _ => Fits.word inferInstance
      (Fits.bind (S1 := b!" ") fits_nstring (fun _ => Fits.word inferInstance
        (Fits.bind (S1 := b!" ") fits_nstring (fun _ => Fits.word inferInstance
          (Fits.bind (S1 := b!")") fits_nstring (fun _ => Fits.word inferInstance Fits.pure) (hk := fun _ => Begs.of _ inferInstance) (by decide +kernel)))
          (hk := fun _ => Begs.of _ inferInstance) (by decide +kernel)))
        (hk := fun _ => Begs.of _ inferInstance) (by decide +kernel)))
      (hk := fun _ => Begs.of _ inferInstance) (by decide +kernel))

instance : Begs0 gAddressParen [b!"("] := Begs0.bind _ _
instance : Errs addressParen [b!"("] := Errs.bind _ _

theorem gAddress_eq : Grammar.Server.address = if q.spacesBetweenAddresses then (do let _ ← Star Grammar.sp; gAddressParen) else gAddressParen := by
  unfold Grammar.Server.address gAddressParen
  cases q.spacesBetweenAddresses <;> simp

/-- What addresses begin with. -/
def addressHeads : List Bytes := [b!" ", b!"("]

theorem fits_address {S : List UInt8} : Fits address Grammar.Server.address S := by
  rw [address, gAddress_eq]
  split
  · exact Fits.many0 (S1 := b!" (") (Fits.lit inferInstance) (fun _ => fits_addressParen) (by decide +kernel)
      (hk := fun _ => Begs.of _ inferInstance) (by decide +kernel) (by decide +kernel)
  · exact fits_addressParen

instance : Begs0 Grammar.Server.address addressHeads := by
  rw [gAddress_eq]
  split
  · refine ⟨?_⟩
    rintro w v ⟨w1, w2, l, rfl, h1, h2⟩
    cases h1 with
    | nil =>
      obtain ⟨k, hk, hb⟩ := (inferInstance : Begs0 gAddressParen [b!"("]).out h2
      exact ⟨k, List.mem_cons_of_mem _ hk, hb⟩
    | @cons u u' _ _ h t => exact ⟨b!" ", List.mem_cons_self .., u, u' ++ w2, by simp, h⟩
  · exact Begs0.mono (B := [b!"("]) inferInstance (by decide)

theorem many0_sp_error {x : Bytes} (h1 : diverges b!" " x = true) : (many0 sp : P (List Unit)) x = .ok x [] :=
  many0_stop ((inferInstance : Errs sp [b!" "]).out fun k hk => by simp only [List.mem_singleton] at hk; subst hk; exact h1)

instance : Errs address addressHeads := ⟨by decide, by
  intro x hx
  have h1 := hx b!" " (by decide)
  have h2 := hx b!"(" (by decide)
  have h3 : addressParen x = .error := (inferInstance : Errs addressParen [b!"("]).out fun k hk => by
    simp only [List.mem_singleton] at hk; subst hk; exact h2
  rw [address]
  split
  · rw [P.bind_apply, many0_sp_error h1, Res.andThen_ok, h3]
  · exact h3⟩

theorem fits_addresses {S : List UInt8} : Fits envAddresses Grammar.Server.addresses S := by
  refine Fits.alt_cons ?_ (Fits.alt_one (Fits.is ⟨rfl⟩)) (hb := Begs.of _ inferInstance) (by decide +kernel)
  unfold Grammar.parens
  exact Fits.word inferInstance (Fits.many1 (S1 := b!" ()") fits_address (fun l => Fits.word inferInstance Fits.pure) (by decide +kernel)
    (hk := fun _ => Begs.of _ inferInstance) (by decide +kernel) (by decide +kernel))

/-- What lists of addresses begin with. -/
def addressesHeads : List Bytes := [b!"(", b!"NIL"]

instance : Begs0 Grammar.Server.addresses addressesHeads :=
  Begs0.mono (B := [b!"("] ++ ([b!"NIL"] ++ [])) (by unfold Grammar.Server.addresses; infer_instance) (by decide)

theorem fits_envelope {S : List UInt8} : Fits envelope Grammar.Server.envelope S := by
  unfold envelope Grammar.Server.envelope
  refine Fits.word inferInstance ?_
  refine Fits.bind (S1 := b!" ") fits_nstring (fun _ => Fits.word inferInstance ?_) (hk := fun _ => Begs.of _ inferInstance) (by decide +kernel)
  refine Fits.bind (S1 := b!" ") fits_nstring (fun _ => Fits.word inferInstance ?_) (hk := fun _ => Begs.of _ inferInstance) (by decide +kernel)
  refine Fits.bind (S1 := b!" ") fits_addresses (fun _ => Fits.word inferInstance ?_) (hk := fun _ => Begs.of _ inferInstance) (by decide +kernel)
  refine Fits.bind (S1 := b!" ") fits_addresses (fun _ => Fits.word inferInstance ?_) (hk := fun _ => Begs.of _ inferInstance) (by decide +kernel)
  refine Fits.bind (S1 := b!" ") fits_addresses (fun _ => Fits.word inferInstance ?_) (hk := fun _ => Begs.of _ inferInstance) (by decide +kernel)
  refine Fits.bind (S1 := b!" ") fits_addresses (fun _ => Fits.word inferInstance ?_) (hk := fun _ => Begs.of _ inferInstance) (by decide +kernel)
  refine Fits.bind (S1 := b!" ") fits_addresses (fun _ => Fits.word inferInstance ?_) (hk := fun _ => Begs.of _ inferInstance) (by decide +kernel)
  refine Fits.bind (S1 := b!" ") fits_addresses (fun _ => Fits.word inferInstance ?_) (hk := fun _ => Begs.of _ inferInstance) (by decide +kernel)
  refine Fits.bind (S1 := b!" ") fits_nstring (fun _ => Fits.word inferInstance ?_) (hk := fun _ => Begs.of _ inferInstance) (by decide +kernel)
  exact Fits.bind (S1 := b!")") fits_nstring (fun _ => Fits.word inferInstance Fits.pure) (hk := fun _ => Begs.of _ inferInstance) (by decide +kernel)

instance : Begs0 Grammar.Server.envelope [b!"("] := Begs0.bind _ _
instance : Errs envelope [b!"("] := Errs.bind _ _

/-! ### Fields -/

instance : Errs fldParam stringHeads := Errs.bind _ _

theorem fits_bodyFldParam {S : List UInt8} : Fits bodyFldParam Grammar.Server.bodyFldParam S := by
  refine Fits.alt_cons ?_ (Fits.alt_one (Fits.is ⟨rfl⟩)) (hb := Begs.of _ inferInstance) (by decide +kernel)
  unfold Grammar.parens
  refine Fits.word inferInstance (Fits.sepBy0 (S1 := b!" )")
    (ListOk.mk' (hk := fun l => Begs.of _ inferInstance) (by decide +kernel) (by decide +kernel) (by decide +kernel)) ?_
    (fun l => Fits.word inferInstance Fits.pure) (hk := fun l => Begs.of _ inferInstance) (by decide +kernel))
  exact Fits.bind (S1 := b!" ") fits_string (fun _ => Fits.word inferInstance (Fits.bind (S1 := b!" )") fits_string (fun _ => Fits.pure) (by decide +kernel)))
    (by decide +kernel)

/-- What parameters begin with. -/
def paramHeads : List Bytes := [b!"(", b!"NIL"]

instance : Begs0 Grammar.Server.bodyFldParam paramHeads :=
  Begs0.mono (B := [b!"("] ++ ([b!"NIL"] ++ [])) (by unfold Grammar.Server.bodyFldParam; infer_instance) (by decide)

instance : Errs bodyFldParam paramHeads := Errs.mono (E := [b!"("] ++ [b!"NIL"]) (by unfold bodyFldParam; infer_instance) (by decide)

theorem fits_bodyFldEnc {S : List UInt8} : Fits bodyFldEnc Grammar.Server.bodyFldEnc S := by
  unfold bodyFldEnc Grammar.Server.bodyFldEnc
  split
  · refine Fits.iff (fits_nstring.map (f := fun s => s.getD (.quoted []))) fun w v => ?_
    simp only [choice_cons, choice_nil, or_false]
    constructor
    · rintro (h | ⟨h, rfl⟩)
      · exact ⟨some v, ⟨_, List.mem_cons_self .., v, h, rfl⟩, rfl⟩
      · exact ⟨none, ⟨_, List.mem_cons_of_mem _ (List.mem_cons_self ..), h, rfl⟩, rfl⟩
    · rintro ⟨a, ⟨g, hg, h⟩, rfl⟩
      simp only [List.mem_cons, List.not_mem_nil, or_false] at hg
      rcases hg with rfl | rfl
      · obtain ⟨s, hs, rfl⟩ := h
        exact .inl hs
      · obtain ⟨hs, rfl⟩ := h
        exact .inr ⟨hs, rfl⟩
  · exact fits_string

instance : Begs0 Grammar.Server.bodyFldEnc nstringHeads := by
  unfold Grammar.Server.bodyFldEnc
  split
  · exact Begs0.mono (B := stringHeads ++ ([b!"NIL"] ++ [])) inferInstance (by decide)
  · exact Begs0.mono (B := stringHeads) inferInstance (by decide)

theorem fits_bodyFldOctets {S : List UInt8} (hS : outside isDigit S = true) : Fits bodyFldOctets Grammar.Server.bodyFldOctets S := by
  unfold bodyFldOctets Grammar.Server.bodyFldOctets
  split
  · refine Fits.alt_cons (fits_number hS) (Fits.alt_one (Fits.word inferInstance ?_)) (hb := Begs.of _ inferInstance) (by decide +kernel)
    have := (fits_number hS).map (f := fun _ => 0)
    simp only [map_eq_pure_bind] at this
    exact this
  · exact fits_number hS

/-- What sizes begin with. -/
def octetsHeads : List Bytes := allOf isDigit ++ [b!"-"]

instance : Begs0 Grammar.Server.bodyFldOctets octetsHeads := by
  unfold Grammar.Server.bodyFldOctets
  split
  · exact Begs0.mono (B := allOf isDigit ++ ([b!"-"] ++ [])) inferInstance (by simp [octetsHeads])
  · exact Begs0.mono (B := allOf isDigit) inferInstance (by decide +kernel)

theorem fits_bodyFields : Fits bodyFields Grammar.Server.bodyFields b!" )" := by
  unfold bodyFields Grammar.Server.bodyFields
  refine Fits.bind (S1 := b!" ") fits_bodyFldParam (fun _ => Fits.word inferInstance ?_) (by decide +kernel)
  refine Fits.bind (S1 := b!" ") fits_nstring (fun _ => Fits.word inferInstance ?_) (by decide +kernel)
  refine Fits.bind (S1 := b!" ") fits_nstring (fun _ => Fits.word inferInstance ?_) (by decide +kernel)
  refine Fits.bind (S1 := b!" ") fits_bodyFldEnc (fun _ => Fits.word inferInstance ?_) (by decide +kernel)
  exact Fits.bind (S1 := b!" )") (fits_bodyFldOctets (by decide)) (fun _ => Fits.pure) (by decide +kernel)

instance : Begs0 Grammar.Server.bodyFields paramHeads := Begs0.bind _ _

/-! ### Extension data -/

/-- What extensions begin with. -/
def extHeads : List Bytes := nstringHeads ++ (allOf isDigit ++ [b!"("])

instance (n : Nat) : Begs0 (Grammar.Server.bodyExtension n) extHeads := by
  cases n with
  | zero => exact Begs0.mono (B := []) (by unfold Grammar.Server.bodyExtension; infer_instance) (by simp)
  | succ n =>
    exact Begs0.mono (B := nstringHeads ++ (allOf isDigit ++ ([b!"("] ++ []))) (by unfold Grammar.Server.bodyExtension; infer_instance) (by simp [extHeads])

theorem fits_bodyExtension (n : Nat) : Fits (bodyExtension n) (Grammar.Server.bodyExtension n) b!" )" := by
  induction n with
  | zero =>
    unfold bodyExtension Grammar.Server.bodyExtension
    refine ⟨fun h => by simp at h, ?_⟩
    rintro w v r ⟨g, hg, -⟩
    simp at hg
  | succ n ih =>
    unfold bodyExtension Grammar.Server.bodyExtension
    refine Fits.alt_cons (Fits.map fits_nstring) ?_ (by decide +kernel)
    refine Fits.alt_cons (Fits.map (fits_number (by decide))) ?_ (by decide +kernel)
    refine Fits.alt_one (Fits.map ?_)
    unfold Grammar.parens
    refine Fits.word inferInstance ?_
    refine Fits.sepBy1 (S1 := b!" )") (ListOk.mk' (by decide +kernel) (by decide +kernel) (by decide +kernel)) ih fun l => ?_
    exact Fits.word inferInstance Fits.pure

theorem fits_bodyFldDsp {S : List UInt8} : Fits bodyFldDsp Grammar.Server.bodyFldDsp S := by
  refine Fits.alt_cons ?_ (Fits.alt_one (Fits.is ⟨rfl⟩)) (hb := Begs.of _ inferInstance) (by decide +kernel)
  simp only [Grammar.parens, map_eq_pure_bind, bind_assoc, pure_bind]
  refine Fits.word inferInstance ?_
  refine Fits.bind (S1 := b!" ") fits_string (fun _ => Fits.word inferInstance ?_) (hk := fun _ => Begs.of _ inferInstance) (by decide +kernel)
  exact Fits.bind (S1 := b!")") fits_bodyFldParam (fun _ => Fits.word inferInstance Fits.pure) (hk := fun _ => Begs.of _ inferInstance) (by decide +kernel)

instance : Begs0 Grammar.Server.bodyFldDsp paramHeads :=
  Begs0.mono (B := [b!"("] ++ ([b!"NIL"] ++ [])) (by unfold Grammar.Server.bodyFldDsp; infer_instance) (by decide)

instance : Errs bodyFldDsp paramHeads := Errs.mono (E := [b!"("] ++ [b!"NIL"]) (by unfold bodyFldDsp; infer_instance) (by decide)

theorem fits_bodyFldLang {S : List UInt8} : Fits bodyFldLang Grammar.Server.bodyFldLang S := by
  refine Fits.alt_cons (Fits.map fits_nstring) (Fits.alt_one ?_) (hb := Begs.of _ inferInstance) (by decide +kernel)
  unfold Grammar.parens
  refine Fits.word inferInstance ?_
  exact Fits.sepBy1 (S1 := b!" )") (ListOk.mk' (hk := fun _ => Begs.of _ inferInstance) (by decide +kernel) (by decide +kernel) (by decide +kernel))
    fits_string fun l => Fits.word inferInstance Fits.pure

/-- What languages begin with. -/
def langHeads : List Bytes := nstringHeads ++ [b!"("]

instance : Begs0 Grammar.Server.bodyFldLang langHeads :=
  Begs0.mono (B := nstringHeads ++ ([b!"("] ++ [])) (by unfold Grammar.Server.bodyFldLang; infer_instance) (by decide)

instance : Errs bodyFldLang langHeads := Errs.mono (E := nstringHeads ++ [b!"("]) (by unfold bodyFldLang; infer_instance) (by decide)

/-- `SP body-fld-loc *(SP body-extension)`. -/
def gLocation : G Location := do
  Grammar.sp
  let location ← Grammar.nstring
  let extensions ← Star (do Grammar.sp; Grammar.Server.bodyExtension 8)
  return { location, extensions }

/-- `SP body-fld-lang [...]`. -/
def gLanguage : G Language := do
  Grammar.sp
  let language ← Grammar.Server.bodyFldLang
  let tail ← Grammar.opt gLocation
  return { language, tail }

/-- `SP body-fld-dsp [...]`. -/
def gDisposition : G Disposition := do
  Grammar.sp
  let disposition ← Grammar.Server.bodyFldDsp
  let tail ← Grammar.opt gLanguage
  return { disposition, tail }

instance : Begs0 gLocation (nstringHeads.map fun e => b!" " ++ e) := by unfold gLocation; infer_instance
instance : Begs0 gLanguage (langHeads.map fun e => b!" " ++ e) := by unfold gLanguage; infer_instance
instance : Begs0 gDisposition (paramHeads.map fun e => b!" " ++ e) := by unfold gDisposition; infer_instance
instance : Errs extLocation (nstringHeads.map fun e => b!" " ++ e) := by unfold extLocation; infer_instance
instance : Errs extLanguage (langHeads.map fun e => b!" " ++ e) := by unfold extLanguage; infer_instance
instance : Errs extDisposition (paramHeads.map fun e => b!" " ++ e) := by unfold extDisposition; infer_instance

theorem fits_location : Fits extLocation gLocation b!")" := by
  unfold extLocation gLocation
  refine Fits.word inferInstance (Fits.bind (S1 := b!" )") fits_nstring (fun _ => ?_) (by decide +kernel))
  refine Fits.many0 (S1 := b!" )") ?_ (fun _ => Fits.pure) (by decide +kernel) (by decide +kernel) (he := Errs.bind _ _) (by decide +kernel)
  exact Fits.word inferInstance (fits_bodyExtension 8)

theorem fits_language : Fits extLanguage gLanguage b!")" := by
  unfold extLanguage gLanguage
  refine Fits.word inferInstance (Fits.bind (S1 := b!" )") fits_bodyFldLang (fun _ => ?_) (by decide +kernel))
  exact Fits.opt fits_location (fun _ => Fits.pure) Fits.pure (by decide +kernel) (by decide +kernel)

theorem fits_disposition : Fits extDisposition gDisposition b!")" := by
  unfold extDisposition gDisposition
  refine Fits.word inferInstance (Fits.bind (S1 := b!" )") fits_bodyFldDsp (fun _ => ?_) (by decide +kernel))
  exact Fits.opt fits_language (fun _ => Fits.pure) Fits.pure (by decide +kernel) (by decide +kernel)

/-- `body-ext-1part`. -/
def gExt1part : G SinglePartExt := do
  let md5 ← Grammar.nstring
  let tail ← Grammar.opt gDisposition
  return { md5, tail }

/-- `body-ext-mpart`. -/
def gExtMpart : G MultiPartExt := do
  let parameterList ← Grammar.Server.bodyFldParam
  let tail ← Grammar.opt gDisposition
  return { parameterList, tail }

theorem ext1part_eq : Grammar.Server.ext1part = Grammar.opt (do Grammar.sp; gExt1part) := rfl
theorem extMpart_eq : Grammar.Server.extMpart = Grammar.opt (do Grammar.sp; gExtMpart) := rfl

instance : Begs0 gExt1part nstringHeads := Begs0.bind _ _
instance : Begs0 gExtMpart paramHeads := Begs0.bind _ _
instance : Errs bodyExt1part nstringHeads := Errs.bind _ _
instance : Errs bodyExtMpart paramHeads := Errs.bind _ _

theorem fits_ext1part : Fits bodyExt1part gExt1part b!")" :=
  Fits.bind (S1 := b!" )") fits_nstring (fun _ => Fits.opt fits_disposition (fun _ => Fits.pure) Fits.pure (by decide +kernel) (by decide +kernel)) (by decide +kernel)

theorem fits_extMpart : Fits bodyExtMpart gExtMpart b!")" :=
  Fits.bind (S1 := b!" )") fits_bodyFldParam (fun _ => Fits.opt fits_disposition (fun _ => Fits.pure) Fits.pure (by decide +kernel) (by decide +kernel)) (by decide +kernel)

end

end Imap.Gr
