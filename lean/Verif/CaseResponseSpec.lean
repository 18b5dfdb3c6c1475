import Verif.CaseSpec
/-
Specification: responses and greetings that are the same except for the letter case. It extends CaseSpec.lean to the messages of servers.
-/
namespace Imap.Spec

open Imap

/-! ### Codes, capabilities and flags -/

instance : Fold SortAlgorithm where
  fold
    | .other s => .other (fold s)
    | a => a

instance : Fold Capability where
  fold
    | .auth m => .auth (fold m)
    | .quotaRes r => .quotaRes (fold r)
    | .sort a => .sort (fold a)
    | .thread a => .thread (fold a)
    | .other s => .other (fold s)
    | c => c

instance : Fold FlagFetch where
  fold
    | .flag f => .flag (fold f)
    | .recent => .recent

instance : Fold FlagPerm where
  fold
    | .flag f => .flag (fold f)
    | .asterisk => .asterisk

instance : Fold FlagNameAttribute where
  fold
    | .extension s => .extension (fold s)
    | a => a

instance : Fold UidElement := ⟨id⟩
instance : Fold MetadataCode := ⟨id⟩

instance : Fold Code where
  fold
    | .badCharset l => .badCharset (fold l)
    | .capability l => .capability (fold l)
    | .permanentFlags l => .permanentFlags (fold l)
    | .referral u => .referral (fold u)
    | .other s => .other (fold s)
    | c => c

/-! ### Greetings, status responses and requests to continue -/

instance : Fold GreetingKind := ⟨id⟩
instance : Fold Greeting := ⟨fun g => ⟨g.kind, fold g.code, fold g.text⟩⟩

instance : Fold StatusKind := ⟨id⟩

instance : Fold Status where
  fold
    | .untagged k c t => .untagged k (fold c) (fold t)
    | .tagged tag k c t => .tagged (fold tag) k (fold c) (fold t)
    | .bye c t => .bye (fold c) (fold t)

/-- The data of a base64 request is not text. -/
instance : Fold ContinueReq where
  fold
    | .basic c t => .basic (fold c) (fold t)
    | .base64 d => .base64 d

/-! ### Envelopes and body structures -/

instance : Fold Address := ⟨fun a => ⟨fold a.name, fold a.adl, fold a.mailbox, fold a.host⟩⟩

instance : Fold Envelope :=
  ⟨fun e => ⟨fold e.date, fold e.subject, fold e.from_, fold e.sender, fold e.replyTo, fold e.to_, fold e.cc, fold e.bcc, fold e.inReplyTo,
    fold e.messageId⟩⟩

/-- Extensions with all strings in lowercase. -/
def foldExtension : BodyExtension → BodyExtension
  | .nstring s => .nstring (fold s)
  | .number n => .number n
  | .list l => .list (go l)
where
  /-- All of the extensions. -/
  go : List BodyExtension → List BodyExtension
    | [] => []
    | e :: l => foldExtension e :: go l

instance : Fold BodyExtension := ⟨foldExtension⟩
instance : Fold Location := ⟨fun x => ⟨fold x.location, fold x.extensions⟩⟩
instance : Fold Language := ⟨fun x => ⟨fold x.language, fold x.tail⟩⟩
instance : Fold Disposition := ⟨fun x => ⟨fold x.disposition, fold x.tail⟩⟩
instance : Fold SinglePartExt := ⟨fun x => ⟨fold x.md5, fold x.tail⟩⟩
instance : Fold MultiPartExt := ⟨fun x => ⟨fold x.parameterList, fold x.tail⟩⟩
instance : Fold BasicFields := ⟨fun f => ⟨fold f.parameterList, fold f.id, fold f.description, fold f.contentTransferEncoding, f.size⟩⟩

/-- Body structures with all strings in lowercase. -/
def foldBody : BodyStructure → BodyStructure
  | .basic f t s x => .basic (fold f) (fold t) (fold s) (fold x)
  | .message f e b n x => .message (fold f) (fold e) (foldBody b) n (fold x)
  | .text f s n x => .text (fold f) (fold s) n (fold x)
  | .multi l s x => .multi (go l) (fold s) (fold x)
where
  /-- All of the body structures. -/
  go : List BodyStructure → List BodyStructure
    | [] => []
    | b :: l => foldBody b :: go l

instance : Fold BodyStructure := ⟨foldBody⟩

/-! ### Data -/

instance : Fold StatusDataItem := ⟨id⟩
instance : Fold Thread := ⟨id⟩

instance : Fold MessageDataItem where
  fold
    | .body b => .body (fold b)
    | .bodyExt s o d => .bodyExt (fold s) o (fold d)
    | .bodyStructure b => .bodyStructure (fold b)
    | .envelope e => .envelope (fold e)
    | .flags l => .flags (fold l)
    | .rfc822 s => .rfc822 (fold s)
    | .rfc822Header s => .rfc822Header (fold s)
    | .rfc822Text s => .rfc822Text (fold s)
    | .binary s v => .binary s (fold v)
    | i => i

instance : Fold NamespaceExt := ⟨fun e => ⟨fold e.key, fold e.values⟩⟩
instance : Fold Namespace := ⟨fun n => ⟨fold n.prefix_, fold n.delimiter, fold n.extensions⟩⟩
instance : Fold QuotaGet := ⟨fun q => ⟨fold q.resource, q.usage, q.limit⟩⟩

instance : Fold MetadataResponse where
  fold
    | .withValues l => .withValues (fold l)
    | .withoutValues l => .withoutValues (fold l)

instance : Fold Data where
  fold
    | .capability l => .capability (fold l)
    | .list l d m => .list (fold l) (fold d) (fold m)
    | .lsub l d m => .lsub (fold l) (fold d) (fold m)
    | .status m l => .status (fold m) l
    | .flags l => .flags (fold l)
    | .fetch n l => .fetch n (fold l)
    | .enabled l => .enabled (fold l)
    | .quota r l => .quota (fold r) (fold l)
    | .quotaRoot m l => .quotaRoot (fold m) (fold l)
    | .id_ p => .id_ (fold p)
    | .metadata m r => .metadata (fold m) (fold r)
    | .namespace_ p o s => .namespace_ (fold p) (fold o) (fold s)
    | d => d

instance : Fold Response where
  fold
    | .continue_ r => .continue_ (fold r)
    | .data d => .data (fold d)
    | .status s => .status (fold s)

/-! ### Inputs -/

/-- Two inputs that differ at most in the case of letters, and not at all in the first line if that is a request to continue which does
not begin with a code: such a line may be base64, in which the letter case matters. -/
def SameResponse (x y : Bytes) : Prop :=
  SameLetters x y ∧ ∀ c line rest, c ≠ 91 → 10 ∉ c :: line → x = b!"+ " ++ c :: line ++ 10 :: rest →
    ∃ rest', y = b!"+ " ++ c :: line ++ 10 :: rest'

/-- The words that a response which does not begin with a number can begin with, after the asterisk and the space. -/
def responseNames : List Bytes :=
  [b!"OK", b!"NO", b!"BAD", b!"BYE", b!"FLAGS", b!"LIST", b!"LSUB", b!"SEARCH", b!"SORT", b!"THREAD", b!"STATUS", b!"METADATA",
    b!"NAMESPACE", b!"QUOTA", b!"QUOTAROOT", b!"VANISHED", b!"CAPABILITY", b!"ENABLED", b!"ID"]

end Imap.Spec
