import Verif.Types
import Verif.WellFormed
/-
Specification: the names of the values that have a catch-all variant, in lowercase. They are those of the RFCs cited by the documentation
of the types.
-/
namespace Imap.Spec

open Imap

/-- A conversion from atoms finds the known names whatever the letter case, and maps all other atoms to the catch-all variant, with the
very same atom. -/
def Recognises {α : Type} (known : List (Bytes × α)) (other : Bytes → α) (conv : Bytes → α) : Prop :=
  ∀ a, (∀ x ∈ known, lowerAll a = x.1 → conv a = x.2) ∧ ((∀ x ∈ known, lowerAll a ≠ x.1) → conv a = other a)

/-- The entries that are a part of this build: some values exist only with a feature. -/
def inBuild {α : Type} (l : List (Bool × Bytes × α)) : List (Bytes × α) := (l.filter Prod.fst).map Prod.snd

/-- System flags, without the backslash (RFC 3501, section 2.3.2). -/
def flagNames : List (Bytes × Flag) :=
  [(b!"seen", .seen), (b!"answered", .answered), (b!"flagged", .flagged), (b!"deleted", .deleted), (b!"draft", .draft)]

/-- Attributes of mailboxes, without the backslash (RFC 3501, section 7.2.2). -/
def attributeNames : List (Bytes × FlagNameAttribute) :=
  [(b!"noinferiors", .noinferiors), (b!"noselect", .noselect), (b!"marked", .marked), (b!"unmarked", .unmarked)]

/-- The mechanisms that are recognised. -/
def mechanismNames : List (Bytes × AuthMechanism) :=
  [(b!"plain", .plain), (b!"login", .login), (b!"oauthbearer", .oAuthBearer), (b!"xoauth2", .xOAuth2),
    (b!"scram-sha-1", .scramSha1), (b!"scram-sha-1-plus", .scramSha1Plus), (b!"scram-sha-256", .scramSha256),
    (b!"scram-sha-256-plus", .scramSha256Plus)]

/-- The mechanisms that are not recognised, although the type has values for them. -/
def missedMechanismNames : List (Bytes × AuthMechanism) :=
  [(b!"scram-sha3-512", .scramSha3_512), (b!"scram-sha3-512-plus", .scramSha3_512Plus)]

/-- What can be enabled. -/
def enableNames [q : Quirks] : List (Bytes × CapabilityEnable) := inBuild
  [(q.extCondstoreQresync, b!"condstore", .condStore), (q.extMetadata, b!"metadata", .metadata),
    (q.extMetadata, b!"metadata-server", .metadataServer), (q.extUtf8, b!"utf8=accept", .utf8Accept),
    (q.extUtf8, b!"utf8=only", .utf8Only)]

/-- Resources of quotas (RFC 9208, section 5). -/
def resourceNames : List (Bytes × Resource) :=
  [(b!"storage", .storage), (b!"message", .message), (b!"mailbox", .mailbox), (b!"annotation-storage", .annotationStorage)]

/-- Sort algorithms (RFC 5957). -/
def sortNames : List (Bytes × SortAlgorithm) := [(b!"display", .display)]

/-- Threading algorithms (RFC 5256). -/
def threadNames : List (Bytes × ThreadingAlgorithm) := [(b!"orderedsubject", .orderedSubject), (b!"references", .references)]

/-- Capabilities without a parameter. -/
def capabilityNames [q : Quirks] : List (Bytes × Capability) := inBuild
  [(true, b!"imap4rev1", .imap4Rev1), (true, b!"logindisabled", .loginDisabled), (q.starttls, b!"starttls", .startTls),
    (q.extMailboxReferrals, b!"mailbox-referrals", .mailboxReferrals), (q.extLoginReferrals, b!"login-referrals", .loginReferrals),
    (true, b!"sasl-ir", .saslIr), (true, b!"idle", .idle), (true, b!"enable", .enable),
    (true, b!"compress=deflate", .compressDeflate), (true, b!"quota", .quota), (true, b!"quotaset", .quotaSet),
    (true, b!"literal+", .literalPlus), (true, b!"literal-", .literalMinus), (true, b!"move", .move_), (q.extId, b!"id", .id_),
    (true, b!"unselect", .unselect), (true, b!"sort", .sort none), (q.extMetadata, b!"metadata", .metadata),
    (q.extMetadata, b!"metadata-server", .metadataServer), (true, b!"binary", .binary), (true, b!"uidplus", .uidPlus),
    (q.extCondstoreQresync, b!"condstore", .condStore), (q.extCondstoreQresync, b!"qresync", .qResync),
    (q.extUtf8, b!"utf8=accept", .utf8Accept), (q.extUtf8, b!"utf8=only", .utf8Only)]

end Imap.Spec
