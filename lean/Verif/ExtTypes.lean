import Verif.Types
/-
The constructors of commands and data in imap-types/src/extensions. As in `Verif/Types.lean`, the model of a constructor with an argument of
a type that implements `TryInto` takes the result of this conversion.
-/
namespace Imap

namespace CommandBody

variable {ε δ : Type}

/-- `CommandBody::enable` (imap-types/src/extensions/enable.rs:27-34). -/
def mkEnable (capabilities : Made ε (List CapabilityEnable)) : Made ε CommandBody := do return .enable (← capabilities)

/-- `CommandBody::compress` (imap-types/src/extensions/compress.rs:31-33). There is a single algorithm. -/
def mkCompress : CommandBody := .compress

/-- `CommandBody::get_quota` (imap-types/src/extensions/quota.rs:59-66). -/
def mkGetQuota (root : Made ε AString) : Made ε CommandBody := do return .getQuota (← root)

/-- `CommandBody::get_quota_root` (imap-types/src/extensions/quota.rs:71-78). -/
def mkGetQuotaRoot (mailbox : Made ε Mailbox) : Made ε CommandBody := do return .getQuotaRoot (← mailbox)

/-- `CommandBody::set_quota` and `SetQuotaError` (imap-types/src/extensions/quota.rs:83-92, 278-284). -/
def mkSetQuota (root : Made ε AString) (quotas : Made δ (List QuotaSet)) : Made (Error2 ε δ) CommandBody := do
  let r ← root.mapErr .first
  let q ← quotas.mapErr .second
  return .setQuota r q

/-- `CommandBody::move` (imap-types/src/extensions/move.rs:12-27). -/
def mkMove (s : Made ε SequenceSet) (mailbox : Made δ Mailbox) (uid : Bool) : Made (Error2 ε δ) CommandBody := do
  let s ← s.mapErr .first
  let m ← mailbox.mapErr .second
  return .move s m uid

/-- `CommandBody::namespace` (imap-types/src/extensions/namespace.rs:34-36). -/
def mkNamespace : CommandBody := .namespace_

/-- `CommandBody::unselect` (imap-types/src/extensions/unselect.rs:9-11). -/
def mkUnselect : CommandBody := .unselect

end CommandBody

namespace Data

open CommandBody (Error2)

variable {ε δ ζ : Type}

/-- `Data::quota` and `QuotaError` (imap-types/src/extensions/quota.rs:96-105, 262-268). -/
def mkQuota (root : Made ε AString) (quotas : Made δ (List QuotaGet)) : Made (Error2 ε δ) Data := do
  let r ← root.mapErr .first
  let q ← quotas.mapErr .second
  return .quota r q

/-- `Data::quota_root` and `QuotaRootError` (imap-types/src/extensions/quota.rs:107-119, 270-276). -/
def mkQuotaRoot (mailbox : Made ε Mailbox) (roots : Made δ (List AString)) : Made (Error2 ε δ) Data := do
  let m ← mailbox.mapErr .first
  let r ← roots.mapErr .second
  return .quotaRoot m r

/-- `Data::namespace` (imap-types/src/extensions/namespace.rs:41-57). The types of the three errors are joined in one sum. -/
def mkNamespace (personal : Made ε (List Namespace)) (other : Made δ (List Namespace)) (shared : Made ζ (List Namespace)) :
    Made (ε ⊕ δ ⊕ ζ) Data := do
  let p ← personal.mapErr .inl
  let o ← other.mapErr (.inr ∘ .inl)
  let s ← shared.mapErr (.inr ∘ .inr)
  return .namespace_ p o s

end Data

/-- `Namespace::new` (imap-types/src/extensions/namespace.rs:80-86). -/
def Namespace.mk' (pre : IString) (delimiter : Option UInt8) : Namespace := { prefix_ := pre, delimiter, extensions := [] }

/-- `QuotaGet::new` (imap-types/src/extensions/quota.rs:233-239). -/
def QuotaGet.mk' (resource : Resource) (usage limit : Nat) : QuotaGet := { resource, usage, limit }

/-- `QuotaSet::new` (imap-types/src/extensions/quota.rs:253-255). -/
def QuotaSet.mk' (resource : Resource) (limit : Nat) : QuotaSet := { resource, limit }

end Imap
