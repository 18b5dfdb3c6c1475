import Verif.WellFormed
/-!
Specification of nested input and of the nesting of decoded values, for C27. The depths `SearchKey.depth`, `Thread.depth` and
`BodyExtension.depth` count the values nested in each other, the outermost one included.
-/
namespace Imap.Spec
open Imap

/-- The ways to open a nested search key. -/
inductive SearchOpener where
  | not | or | paren

/-- The bytes of an opener. -/
def SearchOpener.bytes : SearchOpener → Bytes
  | .not => b!"NOT "
  | .or => b!"OR "
  | .paren => b!"("

/-- The ways to open a nested thread: directly, or after the number of a message. -/
def threadOpener : Option Nat → Bytes
  | none => b!"("
  | some n => b!"(" ++ showNat n ++ b!" "

/-- The search keys of a command. -/
def criteria : CommandBody → List SearchKey
  | .search _ l _ => l
  | .sort _ _ l _ => l
  | .thread _ _ l _ => l
  | _ => []

/-- The body structures of a response. -/
def bodies : Response → List BodyStructure
  | .data (.fetch _ items) => items.filterMap fun i =>
      match i with
      | .body b => some b
      | .bodyStructure b => some b
      | _ => none
  | _ => []

mutual
/-- How many multiparts are nested in each other, not counting those in a nested message. -/
def multiDepth : BodyStructure → Nat
  | .multi l _ _ => multiDepths l + 1
  | _ => 0

/-- The maximum of `multiDepth`. -/
def multiDepths : List BodyStructure → Nat
  | [] => 0
  | b :: l => max (multiDepth b) (multiDepths l)
end

mutual
/-- How many messages (MESSAGE/RFC822) are nested in each other. -/
def messageDepth : BodyStructure → Nat
  | .message _ _ b _ _ => messageDepth b + 1
  | .multi l _ _ => messageDepths l
  | _ => 0

/-- The maximum of `messageDepth`. -/
def messageDepths : List BodyStructure → Nat
  | [] => 0
  | b :: l => max (messageDepth b) (messageDepths l)
end

/-- The extensions in the data after a part. -/
def extensions (o : Option Disposition) : List BodyExtension :=
  match o with
  | some ⟨_, some ⟨_, some l⟩⟩ => l.extensions
  | _ => []

mutual
/-- All extensions of a body structure, at any place in it. -/
def allExtensions : BodyStructure → List BodyExtension
  | .basic _ _ _ x => extensions (x.bind (·.tail))
  | .message _ _ b _ x => allExtensions b ++ extensions (x.bind (·.tail))
  | .text _ _ _ x => extensions (x.bind (·.tail))
  | .multi l _ x => allExtensionsList l ++ extensions (x.bind (·.tail))

/-- The same for a list. -/
def allExtensionsList : List BodyStructure → List BodyExtension
  | [] => []
  | b :: l => allExtensions b ++ allExtensionsList l
end

end Imap.Spec
