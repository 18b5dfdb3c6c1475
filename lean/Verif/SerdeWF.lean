import Verif.SerdeSpec
/-
Messages that satisfy the invariants of the types can be deserialized.
-/
set_option maxRecDepth 10000

namespace Imap.Serde

open Imap Imap.Spec

variable {L : Level}

theorem All.imp {α : Type} {p p' : α → Prop} (h : ∀ a, p a → p' a) {l : List α} (hl : All p l) : All p' l := fun a ha => h a (hl a ha)
theorem All1.imp {α : Type} {p p' : α → Prop} (h : ∀ a, p a → p' a) {l : List α} (hl : All1 p l) : All1 p' l :=
  ⟨hl.1, fun a ha => h a (hl.2 a ha)⟩
theorem Opt.imp {α : Type} {p p' : α → Prop} (h : ∀ a, p a → p' a) {l : Option α} (hl : Opt p l) : Opt p' l := fun a ha => h a (hl a ha)

theorem Flag.dom (f : Flag) (h : Flag.Inv f) : Flag.Dom f := by
  cases f <;> first | trivial | exact h | exact h.1

theorem FlagFetch.dom (f : FlagFetch) (h : FlagFetch.Inv L f) : FlagFetch.Dom f := by
  cases f with
  | flag f => exact Flag.dom f h.1
  | recent => trivial

theorem FlagPerm.dom (f : FlagPerm) (h : FlagPerm.Inv f) : FlagPerm.Dom f := by
  cases f with
  | flag f => exact Flag.dom f h
  | asterisk => trivial

theorem FlagNameAttribute.dom (f : FlagNameAttribute) (h : FlagNameAttribute.Inv f) : FlagNameAttribute.Dom f := by
  cases f <;> first | trivial | exact h | exact h.1

theorem AuthMechanism.dom (f : AuthMechanism) (h : AuthMechanism.Inv L f) : AuthMechanism.Dom f := by
  cases f <;> first | trivial | exact h.1

theorem AttributeFlag.dom (f : AttributeFlag) (h : AttributeFlag.Inv f) : AttributeFlag.Dom f := by
  cases f <;> first | trivial | exact h | exact h.1

mutual

theorem SearchKey.dom [Quirks] : ∀ k : SearchKey, SearchKey.Inv .inv k → SearchKey.Dom k
  | .and l, h => ⟨h.1, SearchKey.domAll l h.2⟩
  | .not k, h => SearchKey.dom k h
  | .or a b, h => ⟨SearchKey.dom a h.1, SearchKey.dom b h.2⟩
  | .modSequence _ _, h => ⟨Opt.imp (fun (x : AttributeFlag × _) => AttributeFlag.dom x.1) h.2.1, h.2.2⟩
  | .sequenceSet _, h | .bcc _, h | .before _, h | .body _, h | .cc _, h | .from_ _, h | .header _ _, h
  | .keyword _, h | .larger _, h | .on _, h | .sentBefore _, h | .sentOn _, h | .sentSince _, h | .since _, h
  | .smaller _, h | .subject _, h | .text _, h | .to _, h | .uid _, h | .unkeyword _, h => h
  | .all, _ | .answered, _ | .deleted, _ | .draft, _ | .flagged, _ | .new, _ | .old, _ | .recent, _ | .seen, _ | .unanswered, _
  | .undeleted, _ | .undraft, _ | .unflagged, _ | .unseen, _ => trivial

theorem SearchKey.domAll [Quirks] : ∀ l : List SearchKey, SearchKey.Inv.go .inv l → SearchKey.Dom.go l
  | [], _ => trivial
  | k :: l, h => ⟨SearchKey.dom k h.1, SearchKey.domAll l h.2⟩

end

theorem CapabilityEnable.dom [Quirks] (f : CapabilityEnable) (h : CapabilityEnable.Inv f) : CapabilityEnable.Dom f := by
  cases f <;> first | trivial | exact h.1

theorem Resource.dom (f : Resource) (h : Resource.Inv f) : Resource.Dom f := by
  cases f <;> first | trivial | exact h.1

theorem ThreadingAlgorithm.dom (f : ThreadingAlgorithm) (h : ThreadingAlgorithm.Inv f) : ThreadingAlgorithm.Dom f := by
  cases f <;> first | trivial | exact h.1

theorem SortAlgorithm.dom (f : SortAlgorithm) (h : SortAlgorithm.Inv f) : SortAlgorithm.Dom f := by
  cases f <;> first | trivial | exact h.1

theorem Criteria.dom [Quirks] (l : List SearchKey) (h : Criteria.Inv .inv l) : All1 SearchKey.Dom l :=
  All1.imp (fun k hk => SearchKey.dom k hk.1) h

theorem CommandBody.dom [Quirks] (b : CommandBody) (h : CommandBody.Inv .inv b) : CommandBody.Dom b := by
  cases b with
  | authenticate m r => exact AuthMechanism.dom m h
  | append m fs d msg => exact ⟨h.1, All.imp Flag.dom h.2.1, h.2.2⟩
  | search c l u => exact ⟨h.1, Criteria.dom l h.2⟩
  | sort s c l u => exact ⟨h.1, h.2.1, Criteria.dom l h.2.2⟩
  | thread a c l u => exact ⟨ThreadingAlgorithm.dom a h.1, h.2.1, Criteria.dom l h.2.2⟩
  | store s k r fs u ms => exact ⟨h.1, All.imp Flag.dom h.2.1, All.imp (fun _ h => h.2) h.2.2⟩
  | enable cs => exact All1.imp CapabilityEnable.dom h
  | setQuota r qs => exact ⟨h.1, All.imp (fun q hq => ⟨Resource.dom _ hq.1, hq.2⟩) h.2⟩
  | _ => exact h

theorem Capability.dom [Quirks] (c : Capability) (h : Capability.Inv .inv c) : Capability.Dom c := by
  cases c with
  | auth m => exact AuthMechanism.dom m h
  | quotaRes r => exact Resource.dom r h.1
  | sort a =>
    cases a with
    | none => trivial
    | some a => exact SortAlgorithm.dom a h
  | thread a => exact ThreadingAlgorithm.dom a h
  | other a => exact h.1
  | _ => trivial

theorem Code.dom [Quirks] (t : Bytes) (c : Code) (h : Code.Inv .inv t c) : Code.Dom c := by
  cases c with
  | capability l => exact All1.imp Capability.dom h
  | permanentFlags l => exact All.imp FlagPerm.dom h
  | other l => exact ⟨nofun, nofun⟩
  | _ => exact h

theorem RespText.dom [Quirks] (c : Option Code) (t : Bytes) (h : RespText.Inv .inv c t) : RespText.Dom c t :=
  ⟨h.1, Opt.imp (Code.dom t) h.2.1⟩

theorem MessageDataItem.dom [Quirks] (x : MessageDataItem) (h : MessageDataItem.Inv .inv x) : MessageDataItem.Dom x := by
  cases x with
  | flags l => exact All.imp FlagFetch.dom h
  | _ => exact h

theorem Data.dom [Quirks] (d : Data) (h : Data.Inv .inv d) : Data.Dom d := by
  cases d with
  | capability l => exact All1.imp Capability.dom h
  | list l d m => exact ⟨All.imp FlagNameAttribute.dom h.1, h.2⟩
  | lsub l d m => exact ⟨All.imp FlagNameAttribute.dom h.1, h.2⟩
  | flags l => exact All.imp Flag.dom h
  | fetch n l => exact ⟨h.1, All1.imp MessageDataItem.dom h.2⟩
  | enabled l => exact All.imp CapabilityEnable.dom h
  | quota r l => exact ⟨h.1, All1.imp (fun q hq => ⟨Resource.dom _ hq.1, hq.2⟩) h.2⟩
  | _ => exact h

theorem Response.dom [Quirks] (r : Response) (h : Response.Inv .inv r) : Response.Dom r := by
  cases r with
  | continue_ r =>
    cases r with
    | basic c t => exact ⟨RespText.dom c t h.1, h.2⟩
    | base64 d => trivial
  | data d => exact Data.dom d h
  | status s =>
    cases s with
    | untagged k c t => exact RespText.dom c t h
    | tagged g k c t => exact ⟨h.1, RespText.dom c t h.2⟩
    | bye c t => exact RespText.dom c t h

/-- The invariants imply that a message can be deserialized. -/
theorem dom [Quirks] : ∀ (k : Codec) (m : k.Message), WellFormed k m → Deserializable k m
  | .greeting, g, h => RespText.dom g.code g.text h
  | .command, c, h => ⟨h.1, CommandBody.dom c.body h.2⟩
  | .authenticateData, _, _ => trivial
  | .response, r, h => Response.dom r h
  | .idleDone, _, _ => trivial

end Imap.Serde
