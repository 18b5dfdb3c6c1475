import Verif.SerdeTypes
import Verif.WellFormedLemmas
/-
Specification: the values that can be deserialized. `Deserializable` is the invariant of the types (`WellFormed`, Verif/WellFormed.lean)
but for one kind of condition: the types for unknown names (`FlagExtension`, `CapabilityOther`, ...) are deserialized without the check
that the name is not the name of a known value. Below, these types are those whose condition is just `IsAtom`. For all types in which
no such type occurs, the condition is the invariant.
-/
namespace Imap.Serde

open Imap Imap.Spec

/-- `Flag`: any atom is accepted as the name of an extension. -/
def Flag.Dom : Flag → Prop
  | .extension s => IsAtom s
  | .keyword s => IsAtom s
  | _ => True

/-- `FlagFetch`. -/
def FlagFetch.Dom : FlagFetch → Prop
  | .flag f => Flag.Dom f
  | .recent => True

/-- `FlagPerm`. -/
def FlagPerm.Dom : FlagPerm → Prop
  | .flag f => Flag.Dom f
  | .asterisk => True

/-- `FlagNameAttribute`: any atom is accepted as the name of an extension. -/
def FlagNameAttribute.Dom : FlagNameAttribute → Prop
  | .extension s => IsAtom s
  | _ => True

/-- `AuthMechanism`: any atom is accepted as the name of another mechanism. -/
def AuthMechanism.Dom : AuthMechanism → Prop
  | .other s => IsAtom s
  | _ => True

/-- `AttributeFlag`: any atom is accepted as the name of an extension. -/
def AttributeFlag.Dom : AttributeFlag → Prop
  | .extension s => IsAtom s
  | .keyword s => IsAtom s
  | _ => True

/-- `SearchKey`. -/
def SearchKey.Dom [Quirks] : SearchKey → Prop
  | .and ks => ks ≠ [] ∧ go ks
  | .sequenceSet s => SequenceSet.Inv s
  | .bcc s | .body s | .cc s | .from_ s | .subject s | .text s | .to s => AString.Inv .inv s
  | .before d | .on d | .sentBefore d | .sentOn d | .sentSince d | .since d => NaiveDate.Inv d
  | .header n v => AString.Inv .inv n ∧ AString.Inv .inv v
  | .keyword a | .unkeyword a => IsAtom a
  | .larger n | .smaller n => n < 2 ^ 32
  | .not k => Dom k
  | .or a b => Dom a ∧ Dom b
  | .uid s => SequenceSet.Inv s
  | .modSequence e n => Opt (fun x => AttributeFlag.Dom x.1) e ∧ n < 2 ^ 64
  | _ => True
where
  /-- All of the keys. -/
  go : List SearchKey → Prop
    | [] => True
    | k :: ks => Dom k ∧ go ks

/-- `CapabilityEnable`: any atom is accepted as the name of another capability. -/
def CapabilityEnable.Dom : CapabilityEnable → Prop
  | .other a => IsAtom a
  | _ => True

/-- `Resource`: any atom is accepted as the name of another resource. -/
def Resource.Dom : Resource → Prop
  | .other a => IsAtom a
  | _ => True

/-- `QuotaSet`. -/
def QuotaSet.Dom (q : QuotaSet) : Prop := Resource.Dom q.resource ∧ q.limit < 2 ^ 64

/-- `QuotaGet`. -/
def QuotaGet.Dom (q : QuotaGet) : Prop := Resource.Dom q.resource ∧ q.usage < 2 ^ 64 ∧ q.limit < 2 ^ 64

/-- `ThreadingAlgorithm`: any atom is accepted as the name of another algorithm. -/
def ThreadingAlgorithm.Dom : ThreadingAlgorithm → Prop
  | .other a => IsAtom a
  | _ => True

/-- `SortAlgorithm`: any atom is accepted as the name of another algorithm. -/
def SortAlgorithm.Dom : SortAlgorithm → Prop
  | .other a => IsAtom a
  | _ => True

/-- `CommandBody`. -/
def CommandBody.Dom [Quirks] : CommandBody → Prop
  | .authenticate m _ => AuthMechanism.Dom m
  | .append m fs d msg => Mailbox.Inv .inv m ∧ All Flag.Dom fs ∧ Opt DateTime.Inv d ∧ LiteralOrLiteral8.Inv .inv msg
  | .search c l _ => Opt Charset.Inv c ∧ All1 SearchKey.Dom l
  | .sort s c l _ => s ≠ [] ∧ Charset.Inv c ∧ All1 SearchKey.Dom l
  | .thread a c l _ => ThreadingAlgorithm.Dom a ∧ Charset.Inv c ∧ All1 SearchKey.Dom l
  | .store s _ _ fs _ ms => SequenceSet.Inv s ∧ All Flag.Dom fs ∧ All (fun n : StoreModifier => n < 2 ^ 64) ms
  | .enable cs => All1 CapabilityEnable.Dom cs
  | .setQuota r qs => AString.Inv .inv r ∧ All QuotaSet.Dom qs
  | b => CommandBody.Inv .inv b

/-- `Command`. -/
def Command.Dom [Quirks] (c : Command) : Prop := Tag.Inv c.tag ∧ CommandBody.Dom c.body

/-- `Capability`: any atom is accepted as the name of another capability. -/
def Capability.Dom : Capability → Prop
  | .auth m => AuthMechanism.Dom m
  | .quotaRes r => Resource.Dom r
  | .sort (some a) => SortAlgorithm.Dom a
  | .thread a => ThreadingAlgorithm.Dom a
  | .other a => IsAtom a
  | _ => True

/-- `Code`. -/
def Code.Dom [Quirks] : Code → Prop
  | .capability l => All1 Capability.Dom l
  | .permanentFlags l => All FlagPerm.Dom l
  | c => Code.Inv .inv [] c

/-- Code and `Text`. -/
def RespText.Dom [Quirks] (code : Option Code) (text : Bytes) : Prop := Str1 TextChar text ∧ Opt Code.Dom code

/-- `Status`. -/
def Status.Dom [Quirks] : Status → Prop
  | .untagged _ c t => RespText.Dom c t
  | .tagged tag _ c t => Tag.Inv tag ∧ RespText.Dom c t
  | .bye c t => RespText.Dom c t

/-- `CommandContinuationRequest`. -/
def ContinueReq.Dom [Quirks] : ContinueReq → Prop
  | .basic c t => RespText.Dom c t ∧ (c = none → t.head? ≠ some 91 ∧ b64Decode t = none)
  | .base64 _ => True

/-- `MessageDataItem`. -/
def MessageDataItem.Dom [Quirks] : MessageDataItem → Prop
  | .flags l => All FlagFetch.Dom l
  | x => MessageDataItem.Inv .inv x

/-- `Data`. -/
def Data.Dom [Quirks] : Data → Prop
  | .capability l => All1 Capability.Dom l
  | .list l d m => All FlagNameAttribute.Dom l ∧ Opt TextChar d ∧ Mailbox.Inv .inv m
  | .lsub l d m => All FlagNameAttribute.Dom l ∧ Opt TextChar d ∧ Mailbox.Inv .inv m
  | .flags l => All Flag.Dom l
  | .fetch n l => NZ32 n ∧ All1 MessageDataItem.Dom l
  | .enabled l => All CapabilityEnable.Dom l
  | .quota r l => AString.Inv .inv r ∧ All1 QuotaGet.Dom l
  | d => Data.Inv .inv d

/-- `Response`. -/
def Response.Dom [Quirks] : Response → Prop
  | .continue_ r => ContinueReq.Dom r
  | .data d => Data.Dom d
  | .status s => Status.Dom s

end Imap.Serde

namespace Imap

/-- The messages that can be deserialized, see the top of this file. -/
def Deserializable [Quirks] : (k : Codec) → k.Message → Prop
  | .greeting, g => Serde.RespText.Dom g.code g.text
  | .command, c => Serde.Command.Dom c
  | .authenticateData, _ => True
  | .response, r => Serde.Response.Dom r
  | .idleDone, _ => True

end Imap
