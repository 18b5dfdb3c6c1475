import Verif.Types
import Verif.WellFormed
/-
Specification: the messages that the structured fuzz targets can generate and whose round trip fails, and what they never generate.
-/
namespace Imap.Spec

open Imap

/-- The code is not a referral, which the decoder does not know. -/
def NoReferral (c : Option Code) : Prop := ∀ url, c ≠ some (.referral url)

/-- The item of a FETCH response is not MODSEQ, which the encoder writes without parentheses. It is not a list of flags with an
extension flag that is spelled `\Recent`, which is decoded as the flag `\Recent`. -/
def ItemRecoverable : MessageDataItem → Prop
  | .modSeq _ => False
  | .flags l => ∀ s, FlagFetch.flag (.extension s) ∈ l → lowerAll s ≠ b!"recent"
  | _ => True

/-- The message has none of these three parts. -/
def Recoverable : (k : Codec) → k.Message → Prop
  | .greeting, g => NoReferral g.code
  | .response, .status s => NoReferral s.code
  | .response, .continue_ (.basic c _) => NoReferral c
  | .response, .data (.fetch _ items) => ∀ i ∈ items, ItemRecoverable i
  | _, _ => True

/-! ### What is never generated -/

/-- The mailbox has the simplest form that its name admits: an atom if possible, otherwise a quoted string if possible, otherwise a
synchronizing literal. The name is UTF-8. -/
def SimplestForm : Mailbox → Prop
  | .inbox | .other (.atom _) => True
  | .other (.string (.quoted s)) => ¬ Str1 AStringChar s
  | .other (.string (.literal l)) => l.mode = .sync ∧ isUtf8 l.data = true ∧ ∃ b ∈ l.data, ¬ TextChar b
  | .other (.string (.quotedUtf8 _)) => False

/-- The time is not to the west of UTC. -/
def NotWest (t : DateTime) : Prop := 0 ≤ t.offset

/-- The search key has at most `n` levels of AND, OR and NOT, and there are less than `n` around each MODSEQ. -/
def KeyWithin : (n : Nat) → SearchKey → Prop
  | n, .and ks => 1 ≤ n ∧ go (n - 1) ks
  | n, .or a b => 1 ≤ n ∧ KeyWithin (n - 1) a ∧ KeyWithin (n - 1) b
  | n, .not k => 1 ≤ n ∧ KeyWithin (n - 1) k
  | n, .modSequence _ _ => 1 ≤ n
  | _, _ => True
where
  /-- All of the keys. -/
  go : (n : Nat) → List SearchKey → Prop
    | _, [] => True
    | n, k :: ks => KeyWithin n k ∧ go n ks

/-- The list of search keys is not nested too deeply. -/
def KeysWithin (l : List SearchKey) : Prop := ∀ k ∈ l, KeyWithin 7 k

/-- The parts of a command are of the kind that is generated. -/
def TypicalCommand : CommandBody → Prop
  | .select m _ | .examine m _ | .create m | .delete m | .subscribe m | .unsubscribe m | .getQuotaRoot m | .list m _ | .lsub m _
  | .status m _ | .copy _ m _ | .move _ m _ | .setMetadata m _ | .getMetadata _ m _ => SimplestForm m
  | .rename a b => SimplestForm a ∧ SimplestForm b
  | .append m _ t _ => SimplestForm m ∧ Opt NotWest t
  | .search _ l _ | .sort _ _ l _ | .thread _ _ l _ => KeysWithin l
  | _ => True

/-- There is no list among the extensions at the end of a body structure. -/
def NoLists (x : Option Disposition) : Prop :=
  ∀ d ∈ x, ∀ l ∈ d.tail, ∀ loc ∈ l.tail, ∀ e ∈ loc.extensions, ∀ list, e ≠ .list list

/-- The body structure has at most `n` levels of MESSAGE and MULTIPART, and no lists among its extensions. -/
def BodyWithin : (n : Nat) → BodyStructure → Prop
  | _, .basic _ _ _ x | _, .text _ _ _ x => ∀ e ∈ x, NoLists e.tail
  | n, .message _ _ b _ x => 1 ≤ n ∧ BodyWithin (n - 1) b ∧ ∀ e ∈ x, NoLists e.tail
  | n, .multi l _ x => 1 ≤ n ∧ go (n - 1) l ∧ ∀ e ∈ x, NoLists e.tail
where
  /-- All of the bodies. -/
  go : (n : Nat) → List BodyStructure → Prop
    | _, [] => True
    | n, b :: l => BodyWithin n b ∧ go n l

/-- The thread has at most `n` levels, at each of which there are two equal threads. -/
def Twins : (n : Nat) → Thread → Prop
  | _, .members _ [] => True
  | n + 1, .members _ [a, b] | n + 1, .nested [a, b] => a = b ∧ Twins n a
  | _, _ => False

/-- The only code of the variant `Other` that is generated. -/
def TypicalCode (c : Option Code) : Prop := ∀ s, c = some (.other s) → s = b!"IMAP-CODEC-CODE-OTHER>"

/-- The parts of a FETCH item are of the kind that is generated. -/
def TypicalItem : MessageDataItem → Prop
  | .body b | .bodyStructure b => BodyWithin 3 b
  | .internalDate t => NotWest t
  | _ => True

/-- The parts of the data of a response are of the kind that is generated. -/
def TypicalData : Data → Prop
  | .list _ _ m | .lsub _ _ m | .status m _ | .quotaRoot m _ | .metadata m _ => SimplestForm m
  | .thread l => ∀ t ∈ l, Twins 7 t
  | .fetch _ l => ∀ i ∈ l, TypicalItem i
  | _ => True

/-- The parts of the message are of the kind that is generated. In a greeting, the text does not start with `[`, even after a code. -/
def Typical : (k : Codec) → k.Message → Prop
  | .greeting, g => TypicalCode g.code ∧ g.text.head? ≠ some 91
  | .command, c => TypicalCommand c.body
  | .response, .status s => TypicalCode s.code
  | .response, .continue_ (.basic c _) => TypicalCode c
  | .response, .data d => TypicalData d
  | _, _ => True

end Imap.Spec
