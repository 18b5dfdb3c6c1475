import Verif.Codec
/-
Specification for C42: what a server sees that decodes its buffer whenever a client has sent a line.
-/
namespace Imap.Spec

variable [Quirks]

/-- The results of `decode` after each line. A client sends the fragments one after the other, and the server adds them to its buffer. -/
def serve (k : Codec) (buffer : Bytes) : List Fragment → List (Outcome k.Message)
  | [] => []
  | .line l :: fs => k.decode (buffer ++ l) :: serve k (buffer ++ l) fs
  | .literal d _ :: fs => serve k (buffer ++ d) fs

/-- The literals of a message, in their order. -/
def literals : List Fragment → List (Bytes × Mode)
  | [] => []
  | .line _ :: fs => literals fs
  | .literal d m :: fs => (d, m) :: literals fs

end Imap.Spec
