import Verif.FeaturesSpec
/-!
Specification for C61: builds with the same features and more quirks.
-/
namespace Imap.Spec

open Imap

/-- `q'` is a build with the features of `q`, and at least its quirks. -/
class MoreQuirks (q q' : Quirks) : Prop extends Extends q q' where
  sameStarttls : q.starttls = q'.starttls
  sameCondstoreQresync : q.extCondstoreQresync = q'.extCondstoreQresync
  sameId : q.extId = q'.extId
  sameLoginReferrals : q.extLoginReferrals = q'.extLoginReferrals
  sameMailboxReferrals : q.extMailboxReferrals = q'.extMailboxReferrals
  sameMetadata : q.extMetadata = q'.extMetadata
  sameNamespace : q.extNamespace = q'.extNamespace
  sameUtf8 : q.extUtf8 = q'.extUtf8

/-- The same code; or, if only `q'` has the quirk `trailing_space_capability`, the capabilities for what `q` takes for an unknown code: the
text of a capability code and a space. -/
inductive CodeQuirk (q q' : Quirks) : Code → Code → Prop
  | same (c) : CodeQuirk q q' c c
  | capability {p l} (h : q.trailingSpaceCapability = false) (h' : q'.trailingSpaceCapability = true)
      (hp : @Grammar.Server.capabilityData q p l) : CodeQuirk q q' (.other (p ++ b!" ")) (.capability l)

/-- The same greeting, but for its code. -/
inductive GreetingQuirk (q q' : Quirks) : Greeting → Greeting → Prop
  | same (g) : GreetingQuirk q q' g g
  | code {k c c' t} (h : CodeQuirk q q' c c') : GreetingQuirk q q' ⟨k, some c, t⟩ ⟨k, some c', t⟩

/-- The same response, but for its code. -/
inductive ResponseQuirk (q q' : Quirks) : Response → Response → Prop
  | same (r) : ResponseQuirk q q' r r
  | tagged {a k c c' t} (h : CodeQuirk q q' c c') : ResponseQuirk q q' (.status (.tagged a k (some c) t)) (.status (.tagged a k (some c') t))
  | untagged {k c c' t} (h : CodeQuirk q q' c c') : ResponseQuirk q q' (.status (.untagged k (some c) t)) (.status (.untagged k (some c') t))
  | bye {c c' t} (h : CodeQuirk q q' c c') : ResponseQuirk q q' (.status (.bye (some c) t)) (.status (.bye (some c') t))
  | basic {c c' t} (h : CodeQuirk q q' c c') : ResponseQuirk q q' (.continue_ (.basic (some c) t)) (.continue_ (.basic (some c') t))

end Imap.Spec
