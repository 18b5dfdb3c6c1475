import Verif.SerdeLaws
/-
The laws of the types of responses, see Verif/SerdeLaws.lean.
-/
set_option maxRecDepth 10000

namespace Imap.Serde

open Imap Imap.Spec

/-! ### Envelopes -/

instance : Distinct (.cons b!"name" nstring (.cons b!"adl" nstring (.cons b!"mailbox" nstring (.one b!"host" nstring)))) := ⟨by decide⟩

instance [Quirks] [Complete] : Lawful address (Address.Inv .inv) := Lawful.newtype inferInstance (fun _ => rfl) (fun _ => rfl) fun _ => Iff.rfl

instance : Distinct
  (.cons b!"date" nstring (.cons b!"subject" nstring (.cons b!"from" (list address) (.cons b!"sender" (list address)
    (.cons b!"reply_to" (list address) (.cons b!"to" (list address) (.cons b!"cc" (list address) (.cons b!"bcc" (list address)
    (.cons b!"in_reply_to" nstring (.one b!"message_id" nstring)))))))))) := ⟨by decide⟩

instance [Quirks] [Complete] : Lawful envelope (Envelope.Inv .inv) := Lawful.newtype inferInstance (fun _ => rfl) (fun _ => rfl) fun _ => by
  unfold Envelope.Inv
  tauto

/-! ### Body extensions -/

theorem serExtensions_eq : ∀ l, serExtensions l = l.map serExtension
  | [] => rfl
  | k :: l => by simp [serExtensions, serExtensions_eq l]

theorem BodyExtension.go_iff [Quirks] [Complete] : ∀ l, BodyExtension.Inv.go .inv l ↔ All (BodyExtension.Inv .inv) l
  | [] => by simp [BodyExtension.Inv.go, All]
  | k :: l => by simp [BodyExtension.Inv.go, BodyExtension.go_iff l, All]

theorem BodyExtension.go_le {n : Nat} : ∀ l : List BodyExtension, Imap.BodyExtension.depth.go l ≤ n ↔ ∀ k ∈ l, k.depth ≤ n
  | [] => by simp [Imap.BodyExtension.depth.go]
  | k :: l => by simp [Imap.BodyExtension.depth.go, BodyExtension.go_le l]

instance deExtension_lawful [Quirks] [Complete] : ∀ n, Lawful { ser := serExtension, de := deExtension n } fun e => BodyExtension.Inv .inv e ∧ e.depth ≤ n
  | 0 =>
    { rt := fun e h => by
        have : 1 ≤ e.depth := by cases e <;> simp [Imap.BodyExtension.depth]
        omega
      sound := fun _ _ h => nomatch h
      missing := fun _ h => nomatch h }
  | n + 1 =>
    { rt := fun e h => by
        have ih := deExtension_lawful n
        obtain ⟨h, hd⟩ := h
        show untag (extensionVariants { ser := serExtension, de := deExtension n }) (serExtension e) = some e
        cases e with
        | list l =>
          have hl : All1 (fun k => BodyExtension.Inv .inv k ∧ k.depth ≤ n) l :=
            ⟨h.1, fun k hk => ⟨(BodyExtension.go_iff l).1 h.2 k hk, (BodyExtension.go_le l).1 (Nat.le_of_succ_le_succ hd) k hk⟩⟩
          simp only [serExtension, serExtensions_eq]
          exact untag_rt rfl (of_rt (s := vec 1 { ser := serExtension, de := deExtension n }) hl)
        | nstring s =>
          simp only [serExtension]
          exact untag_rt rfl (of_rt (s := nstring) h)
        | number s =>
          simp only [serExtension]
          exact untag_rt rfl (of_rt (s := u32) h)
      sound := fun v k h => by
        have ih := deExtension_lawful n
        refine untag_sound (P := fun k => BodyExtension.Inv .inv k ∧ k.depth ≤ n + 1) ?_ h
        unfold extensionVariants
        repeat' refine List.forall_mem_cons.2 ⟨?_, ?_⟩
        · exact of_sound fun _ h => ⟨h, by simp [Imap.BodyExtension.depth]⟩
        · exact of_sound fun _ h => ⟨h, by simp [Imap.BodyExtension.depth]⟩
        · refine of_sound fun l h => ?_
          exact ⟨⟨h.1, (BodyExtension.go_iff l).2 fun k hk => (h.2 k hk).1⟩,
            Nat.succ_le_succ ((BodyExtension.go_le l).2 fun k hk => (h.2 k hk).2)⟩
        · exact List.forall_mem_nil _
      missing := fun _ h => nomatch h }

mutual

theorem depth_serExtension : ∀ e : BodyExtension, e.depth ≤ (serExtension e).depth
  | .nstring _ => by
    simp only [Imap.BodyExtension.depth, serExtension]
    exact one_le_tagged _
  | .number _ => by
    simp only [Imap.BodyExtension.depth, serExtension]
    exact one_le_tagged _
  | .list l => by
    have := depth_serExtensions l
    simp only [Imap.BodyExtension.depth, serExtension]
    exact le_tagged (by simp only [Value.depth]; omega)

theorem depth_serExtensions : ∀ l : List BodyExtension, Imap.BodyExtension.depth.go l ≤ depthItems (serExtensions l)
  | [] => by simp [Imap.BodyExtension.depth.go]
  | k :: l => by
    have := depth_serExtension k
    have := depth_serExtensions l
    simp only [Imap.BodyExtension.depth.go, serExtensions, depthItems]
    omega

end

instance [Quirks] [Complete] : Lawful bodyExtension (BodyExtension.Inv .inv) where
  rt k h := (deExtension_lawful _).rt k ⟨h, depth_serExtension k⟩
  sound v k h := ((deExtension_lawful _).sound v k h).1
  missing _ h := nomatch h

/-! ### Fields of bodies -/

instance [Quirks] [Complete] : Lawful params (Params.Inv .inv) := inferInstanceAs (Lawful (list (pair istring istring)) _)

instance : Distinct (.cons b!"location" nstring (.one b!"extensions" (list bodyExtension))) := ⟨by decide⟩

instance [Quirks] [Complete] : Lawful location (Location.Inv .inv) := Lawful.newtype inferInstance (fun _ => rfl) (fun _ => rfl) fun _ => by
  simp [Location.Inv, All]

instance : NotNull location := ⟨rfl⟩

instance : Distinct (.cons b!"language" (list istring) (.one b!"tail" (opt location))) := ⟨by decide⟩

instance [Quirks] [Complete] : Lawful language (Language.Inv .inv) := Lawful.newtype inferInstance (fun _ => rfl) (fun _ => rfl) fun _ => Iff.rfl

instance : NotNull language := ⟨rfl⟩

instance : Distinct (.cons b!"disposition" (opt (pair istring params)) (.one b!"tail" (opt language))) := ⟨by decide⟩

instance [Quirks] [Complete] : Lawful disposition (Disposition.Inv .inv) := Lawful.newtype inferInstance (fun _ => rfl) (fun _ => rfl) fun _ => Iff.rfl

instance : NotNull disposition := ⟨rfl⟩

instance : Distinct (.cons b!"md5" nstring (.one b!"tail" (opt disposition))) := ⟨by decide⟩

instance [Quirks] [Complete] : Lawful singlePartExt (SinglePartExt.Inv .inv) := Lawful.newtype inferInstance (fun _ => rfl) (fun _ => rfl) fun _ => Iff.rfl

instance : NotNull singlePartExt := ⟨rfl⟩

instance : Distinct (.cons b!"parameter_list" params (.one b!"tail" (opt disposition))) := ⟨by decide⟩

instance [Quirks] [Complete] : Lawful multiPartExt (MultiPartExt.Inv .inv) := Lawful.newtype inferInstance (fun _ => rfl) (fun _ => rfl) fun _ => Iff.rfl

instance : NotNull multiPartExt := ⟨rfl⟩

instance : Distinct (.cons b!"parameter_list" params (.cons b!"id" nstring (.cons b!"description" nstring
    (.cons b!"content_transfer_encoding" istring (.one b!"size" u32))))) := ⟨by decide⟩

instance [Quirks] [Complete] : Lawful basicFields (BasicFields.Inv .inv) := Lawful.newtype inferInstance (fun _ => rfl) (fun _ => rfl) fun _ => Iff.rfl

/-! ### Body structures -/

/-- The condition on `SpecificFields`, given the one on the body structure. -/
def SpecificFields.Ok [Quirks] [Complete] {β : Type} (P : β → Prop) : SpecificFields β → Prop
  | .basic t s => IString.Inv .inv t ∧ IString.Inv .inv s
  | .message e b n => Envelope.Inv .inv e ∧ P b ∧ n < 2 ^ 32
  | .text s n => IString.Inv .inv s ∧ n < 2 ^ 32

instance : Distinct basicSpecificFields := ⟨by decide⟩
instance {β : Type} (b : S β) : Distinct (messageSpecificFields b) := ⟨by show [b!"envelope", b!"body_structure", b!"number_of_lines"].Nodup; decide⟩
instance : Distinct textSpecificFields := ⟨by decide⟩

instance [Quirks] [Complete] {β : Type} (b : S β) {P : β → Prop} [h : Lawful b P] : Lawful (specificFields b) (SpecificFields.Ok P) :=
  Lawful.enum (by serde_rt) (by serde_sound)

instance {β : Type} (b : S β) : Distinct (.cons b!"basic" basicFields (.one b!"specific" (specificFields b))) :=
  ⟨by show [b!"basic", b!"specific"].Nodup; decide⟩

instance [Quirks] [Complete] {β : Type} (b : S β) {P : β → Prop} [h : Lawful b P] :
    Lawful (body b) fun x => BasicFields.Inv .inv x.1 ∧ SpecificFields.Ok P x.2 :=
  inferInstanceAs (Lawful (record (.cons b!"basic" basicFields (.one b!"specific" (specificFields b)))) _)

instance {β : Type} (b : S β) : Distinct (singleFields b) := ⟨by show [b!"body", b!"extension_data"].Nodup; decide⟩
instance {β : Type} (b : S β) : Distinct (multiFields b) := ⟨by show [b!"bodies", b!"subtype", b!"extension_data"].Nodup; decide⟩

mutual

/-- How deep body structures are nested. -/
def levels : BodyStructure → Nat
  | .message _ _ b _ _ => levels b + 1
  | .multi l _ _ => levelsAll l + 1
  | _ => 1

/-- The maximum of the levels. -/
def levelsAll : List BodyStructure → Nat
  | [] => 0
  | b :: l => max (levels b) (levelsAll l)

end

theorem serBodies_eq : ∀ l, serBodies l = l.map serBody
  | [] => rfl
  | k :: l => by simp [serBodies, serBodies_eq l]

theorem BodyStructure.go_iff [Quirks] [Complete] : ∀ l, BodyStructure.Inv.go .inv l ↔ All (BodyStructure.Inv .inv) l
  | [] => by simp [BodyStructure.Inv.go, All]
  | k :: l => by simp [BodyStructure.Inv.go, BodyStructure.go_iff l, All]

theorem levelsAll_le {n : Nat} : ∀ l : List BodyStructure, levelsAll l ≤ n ↔ ∀ k ∈ l, levels k ≤ n
  | [] => by simp [levelsAll]
  | k :: l => by simp [levelsAll, levelsAll_le l]

instance deBody_lawful [Quirks] [Complete] : ∀ n, Lawful { ser := serBody, de := deBody n } fun b => BodyStructure.Inv .inv b ∧ levels b ≤ n
  | 0 =>
    { rt := fun e h => by
        have : 1 ≤ levels e := by cases e <;> simp [levels]
        omega
      sound := fun _ _ h => nomatch h
      missing := fun _ h => nomatch h }
  | n + 1 =>
    { rt := fun e h => by
        have ih := deBody_lawful n
        obtain ⟨h, hd⟩ := h
        show untag (bodyVariants { ser := serBody, de := deBody n }) (serBody e) = some e
        cases e with
        | basic f t s x =>
          exact untag_rt rfl (of_rt (s := record (singleFields { ser := serBody, de := deBody n })) (b := ((f, .basic t s), x))
            ⟨⟨h.1, h.2.1, h.2.2.1⟩, h.2.2.2⟩)
        | text f s l x =>
          exact untag_rt rfl (of_rt (s := record (singleFields { ser := serBody, de := deBody n })) (b := ((f, .text s l), x))
            ⟨⟨h.1, h.2.1, h.2.2.1⟩, h.2.2.2⟩)
        | message f e b l x =>
          exact untag_rt rfl (of_rt (s := record (singleFields { ser := serBody, de := deBody n })) (b := ((f, .message e b l), x))
            ⟨⟨h.1, h.2.1, ⟨h.2.2.1, Nat.le_of_succ_le_succ hd⟩, h.2.2.2.2.1⟩, h.2.2.2.2.2⟩)
        | multi l s x =>
          have hl : All1 (fun k => BodyStructure.Inv .inv k ∧ levels k ≤ n) l :=
            ⟨h.1, fun k hk => ⟨(BodyStructure.go_iff l).1 h.2.1 k hk, (levelsAll_le l).1 (Nat.le_of_succ_le_succ hd) k hk⟩⟩
          have he : serBody (.multi l s x) = tagged (b!"Multi",
              some ((record (multiFields { ser := serBody, de := deBody n })).ser (l, s, x))) := by
            simp only [serBody, serBodies_eq]
            simp [record, multiFields, Fields.cons, vec, S.tryFrom, list]
          rw [he]
          exact untag_rt rfl (of_rt (s := record (multiFields { ser := serBody, de := deBody n })) (b := (l, s, x)) ⟨hl, h.2.2⟩)
      sound := fun v k h => by
        have ih := deBody_lawful n
        refine untag_sound (P := fun k => BodyStructure.Inv .inv k ∧ levels k ≤ n + 1) ?_ h
        unfold bodyVariants
        repeat' refine List.forall_mem_cons.2 ⟨?_, ?_⟩
        · refine of_sound fun x h => ?_
          obtain ⟨⟨f, sp⟩, x⟩ := x
          obtain ⟨⟨hf, hs⟩, hx⟩ := h
          cases sp with
          | basic t s => exact ⟨⟨hf, hs.1, hs.2, hx⟩, by simp [single, levels]⟩
          | text s n => exact ⟨⟨hf, hs.1, hs.2, hx⟩, by simp [single, levels]⟩
          | message e b n => exact ⟨⟨hf, hs.1, hs.2.1.1, nofun, hs.2.2, hx⟩, Nat.succ_le_succ hs.2.1.2⟩
        · refine of_sound fun x h => ?_
          exact ⟨⟨h.1.1, (BodyStructure.go_iff _).2 fun k hk => (h.1.2 k hk).1, h.2⟩,
            Nat.succ_le_succ ((levelsAll_le _).2 fun k hk => (h.1.2 k hk).2)⟩
        · exact List.forall_mem_nil _
      missing := fun _ h => nomatch h }

mutual

theorem levels_serBody : ∀ b : BodyStructure, levels b ≤ (serBody b).depth
  | .basic .. => one_le_tagged _
  | .text .. => one_le_tagged _
  | .message f e b n x => by
    have := levels_serBody b
    simp only [levels, serBody]
    refine le_tagged ?_
    simp [record, Fields.cons, Fields.one, Value.depth, depthEntries, body, specificFields, enum, tagged]
    omega
  | .multi l s x => by
    have := levels_serBodies l
    simp only [levels, serBody]
    refine le_tagged ?_
    simp [record, Fields.cons, Fields.one, Value.depth, depthEntries, vec, S.tryFrom, list]
    omega

theorem levels_serBodies : ∀ l : List BodyStructure, levelsAll l ≤ depthItems (serBodies l)
  | [] => by simp [levelsAll]
  | k :: l => by
    have := levels_serBody k
    have := levels_serBodies l
    simp only [levelsAll, serBodies, depthItems]
    omega

end

instance [Quirks] [Complete] : Lawful bodyStructure (BodyStructure.Inv .inv) where
  rt k h := (deBody_lawful _).rt k ⟨h, levels_serBody k⟩
  sound v k h := ((deBody_lawful _).sound v k h).1
  missing _ h := nomatch h

/-! ### Threads -/

instance {β : Type} (b : S β) : Distinct (membersFields b) := ⟨by show [b!"prefix", b!"answers"].Nodup; decide⟩

instance {β : Type} (n : Nat) (b : S β) : NotNull (vec n b) := ⟨rfl⟩

theorem serThreads_eq : ∀ l, serThreads l = l.map serThread
  | [] => rfl
  | k :: l => by simp [serThreads, serThreads_eq l]

theorem Thread.go_iff : ∀ l, Thread.Inv.go l ↔ All Thread.Inv l
  | [] => by simp [Thread.Inv.go, All]
  | k :: l => by simp [Thread.Inv.go, Thread.go_iff l, All]

theorem Thread.go_le {n : Nat} : ∀ l : List Thread, Imap.Thread.depth.go l ≤ n ↔ ∀ k ∈ l, k.depth ≤ n
  | [] => by simp [Imap.Thread.depth.go]
  | k :: l => by simp [Imap.Thread.depth.go, Thread.go_le l]

instance deThread_lawful : ∀ n, Lawful { ser := serThread, de := deThread n } fun t => Thread.Inv t ∧ t.depth ≤ n
  | 0 =>
    { rt := fun e h => by
        have : 1 ≤ e.depth := by cases e <;> simp [Imap.Thread.depth]
        omega
      sound := fun _ _ h => nomatch h
      missing := fun _ h => nomatch h }
  | n + 1 =>
    { rt := fun e h => by
        have ih := deThread_lawful n
        obtain ⟨h, hd⟩ := h
        show untag (threadVariants { ser := serThread, de := deThread n }) (serThread e) = some e
        cases e with
        | members p l =>
          have hl : All (fun k => Thread.Inv k ∧ k.depth ≤ n) l := fun k hk =>
            ⟨(Thread.go_iff l).1 h.2.2 k hk, (Thread.go_le l).1 (by simp only [Imap.Thread.depth] at hd; omega) k hk⟩
          cases l with
          | nil =>
            have he : serThread (.members p []) = tagged (b!"Members",
                some ((record (membersFields { ser := serThread, de := deThread n })).ser (p, none))) := by
              simp only [serThread]
              rfl
            rw [he]
            exact untag_rt rfl (of_rt (s := record (membersFields { ser := serThread, de := deThread n })) (b := (p, none)) ⟨h.1, nofun⟩)
          | cons t l =>
            have he : serThread (.members p (t :: l)) = tagged (b!"Members",
                some ((record (membersFields { ser := serThread, de := deThread n })).ser (p, some (t :: l)))) := by
              simp only [serThread, serThreads_eq]
              simp [record, membersFields, Fields.cons, Fields.one, vec, S.tryFrom, list, opt]
            rw [he]
            refine untag_rt rfl (of_rt (s := record (membersFields { ser := serThread, de := deThread n })) (b := (p, some (t :: l)))
              ⟨h.1, ?_⟩)
            intro _ e
            cases e
            have := h.2.1
            exact ⟨hl, by simp at this ⊢; have := List.length_pos_iff.2 this; omega⟩
        | nested l =>
          have hl : All (fun k => Thread.Inv k ∧ k.depth ≤ n) l := fun k hk =>
            ⟨(Thread.go_iff l).1 h.2 k hk, (Thread.go_le l).1 (by simp only [Imap.Thread.depth] at hd; omega) k hk⟩
          have he : serThread (.nested l) = tagged (b!"Nested",
              some ((record (nestedField { ser := serThread, de := deThread n })).ser l)) := by
            simp only [serThread, serThreads_eq]
            simp [record, nestedField, Fields.one, vec, S.tryFrom, list]
          rw [he]
          exact untag_rt rfl (of_rt (s := record (nestedField { ser := serThread, de := deThread n })) (b := l) ⟨hl, h.1⟩)
      sound := fun v k h => by
        have ih := deThread_lawful n
        refine untag_sound (P := fun k => Thread.Inv k ∧ k.depth ≤ n + 1) ?_ h
        unfold threadVariants
        repeat' refine List.forall_mem_cons.2 ⟨?_, ?_⟩
        · refine of_sound fun x h => ?_
          obtain ⟨p, o⟩ := x
          obtain ⟨hp, ho⟩ := h
          cases o with
          | none => exact ⟨⟨hp, by simp, trivial⟩, by simp [Imap.Thread.depth, Imap.Thread.depth.go]⟩
          | some l =>
            obtain ⟨hl, h2⟩ := ho l rfl
            refine ⟨⟨hp, by simp; omega, (Thread.go_iff _).2 fun k hk => (hl k hk).1⟩, ?_⟩
            have := (Thread.go_le _).2 fun k hk => (hl k hk).2
            simp [Imap.Thread.depth]
            omega
        · refine of_sound fun l h => ?_
          obtain ⟨hl, h2⟩ := h
          refine ⟨⟨h2, (Thread.go_iff _).2 fun k hk => (hl k hk).1⟩, ?_⟩
          have := (Thread.go_le _).2 fun k hk => (hl k hk).2
          simp [Imap.Thread.depth]
          omega
        · exact List.forall_mem_nil _
      missing := fun _ h => nomatch h }

mutual

theorem depth_serThread : ∀ t : Thread, t.depth ≤ (serThread t).depth
  | .members p [] => by
    simp only [Imap.Thread.depth, serThread, serThreads, Imap.Thread.depth.go]
    exact one_le_tagged _
  | .members p (t :: l) => by
    have := depth_serThread t
    have := depth_serThreads l
    simp only [Imap.Thread.depth, serThread, serThreads, Imap.Thread.depth.go]
    refine le_tagged ?_
    simp [record, Fields.cons, Fields.one, Value.depth, depthEntries, vec, S.tryFrom, list, opt, depthItems]
    omega
  | .nested l => by
    have := depth_serThreads l
    simp only [Imap.Thread.depth, serThread]
    refine le_tagged ?_
    simp [record, Fields.one, Value.depth, depthEntries, vec, S.tryFrom, list]
    omega

theorem depth_serThreads : ∀ l : List Thread, Imap.Thread.depth.go l ≤ depthItems (serThreads l)
  | [] => by simp [Imap.Thread.depth.go]
  | k :: l => by
    have := depth_serThread k
    have := depth_serThreads l
    simp only [Imap.Thread.depth.go, serThreads, depthItems]
    omega

end

instance : Lawful thread Thread.Inv where
  rt k h := (deThread_lawful _).rt k ⟨h, depth_serThread k⟩
  sound v k h := ((deThread_lawful _).sound v k h).1
  missing _ h := nomatch h

/-! ### Codes and status responses -/

instance : Lawful sortAlgorithm SortAlgorithm.Dom := Lawful.enum (by serde_rt) (by serde_sound)

instance : NotNull sortAlgorithm := ⟨rfl⟩

instance : Lawful capability Capability.Dom := Lawful.enum
  (by
    intro a h
    cases a with
    | utf8Accept => exact untag_rt rfl (of_rt (s := utf8Kind) (b := .accept) trivial)
    | utf8Only => exact untag_rt rfl (of_rt (s := utf8Kind) (b := .only) trivial)
    | sort a =>
      refine untag_rt rfl (of_rt (s := opt sortAlgorithm) ?_)
      rintro a rfl
      exact h
    | _ => exact untag_rt rfl (by first | rfl | exact of_rt h | exact of_rt trivial))
  (by
    repeat' refine List.forall_mem_cons.2 ⟨?_, ?_⟩
    all_goals first
      | exact List.forall_mem_nil _
      | exact unit_sound trivial
      | exact of_sound fun _ h => h
      | exact of_sound fun b h => by
          cases b
          all_goals first
            | trivial
            | exact h _ rfl)

instance : Lawful uidElement UidElement.Inv := Lawful.enum (by serde_rt) (by serde_sound)

instance : Lawful uidSet (All1 UidElement.Inv) := inferInstanceAs (Lawful ((vec 1 uidElement).newtype id id) _)

instance : Lawful metadataCode MetadataCode.Inv := Lawful.enum (by serde_rt) (by serde_sound)

instance : Distinct appendUidFields := ⟨by decide⟩
instance : Distinct copyUidFields := ⟨by decide⟩

variable [q : Quirks] [Complete]

instance : Lawful code Code.Dom := Lawful.enum (by serde_rt) (by serde_sound)

omit q in
instance : NotNull code := ⟨rfl⟩

omit q in
instance : Lawful greetingKind fun _ => True := Lawful.names fun a => by cases a <;> rfl
omit q in
instance : Lawful statusKind fun _ => True := Lawful.names fun a => by cases a <;> rfl

omit q in
instance : Distinct (.cons b!"kind" greetingKind (.cons b!"code" (opt code) (.one b!"text" text))) := ⟨by decide⟩

instance : Lawful greeting fun g => RespText.Dom g.code g.text :=
  Lawful.newtype inferInstance (fun _ => rfl) (fun _ => rfl) fun _ => by
    unfold RespText.Dom
    tauto

omit q in
instance : Distinct (.cons b!"kind" statusKind (.cons b!"code" (opt code) (.one b!"text" text))) := ⟨by decide⟩

instance : Lawful statusBody fun x => RespText.Dom x.2.1 x.2.2 :=
  Lawful.via (record (.cons b!"kind" statusKind (.cons b!"code" (opt code) (.one b!"text" text)))) fun _ => by
    unfold RespText.Dom
    tauto

omit q in
instance : Distinct (.cons b!"tag" tag (.one b!"body" statusBody)) := ⟨by decide⟩

instance : Lawful taggedStatus fun x => Tag.Inv x.1 ∧ RespText.Dom x.2.2.1 x.2.2.2 :=
  inferInstanceAs (Lawful (record (.cons b!"tag" tag (.one b!"body" statusBody))) _)

omit q in
instance : Distinct (.cons b!"code" (opt code) (.one b!"text" text)) := ⟨by decide⟩

instance : Lawful bye fun x => RespText.Dom x.1 x.2 :=
  Lawful.via (record (.cons b!"code" (opt code) (.one b!"text" text))) fun _ => by
    unfold RespText.Dom
    tauto

instance : Lawful status Status.Dom := Lawful.enum (by serde_rt) (by serde_sound)

omit q in
theorem ofBasic_isSome {c : Option Code} {t : Bytes} :
    (ContinueReq.ofBasic c t).isSome = true ↔ (c = none → t.head? ≠ some 91 ∧ b64Decode t = none) := by
  unfold ContinueReq.ofBasic
  cases c with
  | some _ => simp
  | none =>
    by_cases h : t.head? = some 91 <;> cases hb : b64Decode t <;> simp [h]

instance : Lawful continueBasic fun x => ContinueReq.Dom (.basic x.1 x.2) :=
  Lawful.via ((record (.cons b!"code" (opt code) (.one b!"text" text))).tryFrom fun x => (ContinueReq.ofBasic x.1 x.2).isSome) fun _ => by
    rw [ofBasic_isSome]
    unfold ContinueReq.Dom RespText.Dom
    tauto

instance : Lawful continueReq ContinueReq.Dom := Lawful.enum
  (by
    intro a h
    cases a with
    | basic c t => exact untag_rt rfl (of_rt (s := continueBasic) (b := (c, t)) h)
    | base64 d => exact untag_rt rfl (of_rt (s := bytes) trivial))
  (by serde_sound)

/-! ### Data responses -/

omit q

instance : Lawful statusDataItem StatusDataItem.Inv := Lawful.enum (by serde_rt) (by serde_sound)

instance : Distinct bodyExtFields := ⟨by decide⟩
instance : Distinct binaryFields := ⟨by decide⟩
instance : Distinct binarySizeFields := ⟨by decide⟩
instance : NotNull u32 := ⟨rfl⟩
instance : NotNull nz64 := ⟨rfl⟩

instance : Lawful messageDataItem MessageDataItem.Dom := Lawful.enum (by serde_rt) (by serde_sound)

instance : Distinct (.cons b!"key" istring (.one b!"values" (vec 1 istring))) := ⟨by decide⟩

instance : Lawful namespaceExt (NamespaceExt.Inv .inv) := Lawful.newtype inferInstance (fun _ => rfl) (fun _ => rfl) fun _ => Iff.rfl

instance : NotNull quotedChar := ⟨rfl⟩
instance : Distinct (.cons b!"prefix" istring (.cons b!"delimiter" (opt quotedChar) (.one b!"extensions" (list namespaceExt)))) := ⟨by decide⟩

instance : Lawful namespace_ (Namespace.Inv .inv) := Lawful.newtype inferInstance (fun _ => rfl) (fun _ => rfl) fun _ => Iff.rfl

instance : Distinct (.cons b!"resource" resource (.cons b!"usage" u64 (.one b!"limit" u64))) := ⟨by decide⟩

instance : Lawful quotaGet QuotaGet.Dom := Lawful.newtype inferInstance (fun _ => rfl) (fun _ => rfl) fun _ => Iff.rfl

instance : Lawful metadataResponse (MetadataResponse.Inv .inv) := Lawful.enum (by serde_rt) (by serde_sound)

instance : Distinct listDataFields := ⟨by decide⟩
instance : Distinct statusFields := ⟨by decide⟩
instance : Distinct fetchDataFields := ⟨by decide⟩
instance : Distinct quotaFields := ⟨by decide⟩
instance : Distinct quotaRootFields := ⟨by decide⟩
instance : Distinct metadataFields := ⟨by decide⟩
instance : Distinct vanishedFields := ⟨by decide⟩
instance : Distinct namespaceFields := ⟨by decide⟩

instance : Lawful data Data.Dom := Lawful.enum (by serde_rt) (by serde_sound)

variable [q : Quirks] [Complete]

instance : Lawful response Response.Dom := Lawful.enum (by serde_rt) (by serde_sound)

omit q in
instance : Lawful idleDone fun _ => True := inferInstanceAs (Lawful unit _)

/-- The laws of the messages. -/
theorem lawful : ∀ k : Codec, Lawful k.serde (Deserializable k)
  | .greeting => inferInstanceAs (Lawful greeting _)
  | .command => inferInstanceAs (Lawful command _)
  | .authenticateData => inferInstanceAs (Lawful authenticateData _)
  | .response => inferInstanceAs (Lawful response _)
  | .idleDone => inferInstanceAs (Lawful idleDone _)

end Imap.Serde
