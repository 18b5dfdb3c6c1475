import Verif.GrammarServerSpec
/-!
Specification for C57 and C61: builds with more features and quirks. Cargo unifies the features that the packages of a program ask for, so
that a program may get a build with more features and quirks (which are features for Cargo) than it asked for.
-/
namespace Imap.Spec

open Imap

/-- `q'` is a build with at least the features of `q`, and at least its quirks. The two quirks of the encoder, `id_empty_to_nil` and
`always_normalize_sequence_sets`, are not mentioned: they can be anything. -/
class Extends (q q' : Quirks) : Prop where
  crlfRelaxed : q.crlfRelaxed = true → q'.crlfRelaxed = true
  missingText : q.missingText = true → q'.missingText = true
  rectifyNumbers : q.rectifyNumbers = true → q'.rectifyNumbers = true
  excessiveSpaceQuotaResource : q.excessiveSpaceQuotaResource = true → q'.excessiveSpaceQuotaResource = true
  spacesBetweenAddresses : q.spacesBetweenAddresses = true → q'.spacesBetweenAddresses = true
  trailingSpaceStatus : q.trailingSpaceStatus = true → q'.trailingSpaceStatus = true
  trailingSpaceCapability : q.trailingSpaceCapability = true → q'.trailingSpaceCapability = true
  trailingSpaceId : q.trailingSpaceId = true → q'.trailingSpaceId = true
  trailingSpaceSearch : q.trailingSpaceSearch = true → q'.trailingSpaceSearch = true
  emptyContinueReq : q.emptyContinueReq = true → q'.emptyContinueReq = true
  bodyFldEncNilToEmpty : q.bodyFldEncNilToEmpty = true → q'.bodyFldEncNilToEmpty = true
  starttls : q.starttls = true → q'.starttls = true
  extCondstoreQresync : q.extCondstoreQresync = true → q'.extCondstoreQresync = true
  extId : q.extId = true → q'.extId = true
  extLoginReferrals : q.extLoginReferrals = true → q'.extLoginReferrals = true
  extMailboxReferrals : q.extMailboxReferrals = true → q'.extMailboxReferrals = true
  extMetadata : q.extMetadata = true → q'.extMetadata = true
  extNamespace : q.extNamespace = true → q'.extNamespace = true
  extUtf8 : q.extUtf8 = true → q'.extUtf8 = true

/-- Lists of the same length, with related elements. -/
inductive Pointwise {α β : Type} (R : α → β → Prop) : List α → List β → Prop
  | nil : Pointwise R [] []
  | cons {a b l l'} (h : R a b) (t : Pointwise R l l') : Pointwise R (a :: l) (b :: l')

/-- The same value, or a name that was unknown and is known to `q'`. -/
inductive EnableKnown (q' : Quirks) : CapabilityEnable → CapabilityEnable → Prop
  | same (c) : EnableKnown q' c c
  | known {s c} (h : (lowerAll s, c) ∈ @enableNames q') : EnableKnown q' (.other s) c

/-- The same capability, or one that was unknown and is known to `q'`. -/
inductive CapabilityKnown (q' : Quirks) : Capability → Capability → Prop
  | same (c) : CapabilityKnown q' c c
  | known {s c} (h : (lowerAll s, c) ∈ @capabilityNames q') : CapabilityKnown q' (.other s) c

/-- The same code, or one that was unknown and is known to `q'`. -/
inductive CodeKnown (q' : Quirks) : Code → Code → Prop
  | same (c) : CodeKnown q' c c
  | capability {l l'} (h : Pointwise (CapabilityKnown q') l l') : CodeKnown q' (.capability l) (.capability l')
  | known {s c} (h : @Grammar.Server.respTextCode q' s c) : CodeKnown q' (.other s) c

/-- The same command, or one with names after ENABLE that are known to `q'`. -/
inductive CommandKnown (q' : Quirks) : Command → Command → Prop
  | same (c) : CommandKnown q' c c
  | enable {t l l'} (h : Pointwise (EnableKnown q') l l') : CommandKnown q' ⟨t, .enable l⟩ ⟨t, .enable l'⟩

/-- The same greeting, but for its code. -/
inductive GreetingKnown (q' : Quirks) : Greeting → Greeting → Prop
  | same (c) : GreetingKnown q' c c
  | code {k c c' t} (h : CodeKnown q' c c') : GreetingKnown q' ⟨k, some c, t⟩ ⟨k, some c', t⟩

/-- The same response, but for its code and the names that are known to `q'`. -/
inductive ResponseKnown (q' : Quirks) : Response → Response → Prop
  | same (r) : ResponseKnown q' r r
  | capability {l l'} (h : Pointwise (CapabilityKnown q') l l') : ResponseKnown q' (.data (.capability l)) (.data (.capability l'))
  | enabled {l l'} (h : Pointwise (EnableKnown q') l l') : ResponseKnown q' (.data (.enabled l)) (.data (.enabled l'))
  | tagged {a k c c' t} (h : CodeKnown q' c c') : ResponseKnown q' (.status (.tagged a k (some c) t)) (.status (.tagged a k (some c') t))
  | untagged {k c c' t} (h : CodeKnown q' c c') : ResponseKnown q' (.status (.untagged k (some c) t)) (.status (.untagged k (some c') t))
  | bye {c c' t} (h : CodeKnown q' c c') : ResponseKnown q' (.status (.bye (some c) t)) (.status (.bye (some c') t))
  | basic {c c' t} (h : CodeKnown q' c c') : ResponseKnown q' (.continue_ (.basic (some c) t)) (.continue_ (.basic (some c') t))

end Imap.Spec
