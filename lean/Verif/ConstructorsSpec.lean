import Verif.Types
import Verif.WellFormed
/-
Specification: what validating constructors do, and what mailboxes and strings denote.
-/
namespace Imap.Spec

open Imap

/-- `b`, at index `i`, is the first byte of `v` that is not in the class `c`. -/
def FirstBad (c : UInt8 → Prop) (v : Bytes) (b : UInt8) (i : Nat) : Prop :=
  ∃ pre post, v = pre ++ b :: post ∧ i = pre.length ∧ (∀ x ∈ pre, c x) ∧ ¬ c b

/-- The constructor `f` accepts exactly the strings of zero or more characters of the class `c`, and makes `mk v` of them. Other strings
are rejected with the first offending byte and its index. -/
def Validates {α : Type} (c : UInt8 → Prop) (mk : Bytes → α) (f : Bytes → Made ValidationError α) : Prop :=
  ∀ v, ((∀ b ∈ v, c b) → f v = .ok (mk v)) ∧ ∀ b i, FirstBad c v b i → f v = .err (.invalidByteAt b i)

/-- The same for strings of one or more characters; the empty string has its own error. -/
def Validates1 {α : Type} (c : UInt8 → Prop) (mk : Bytes → α) (f : Bytes → Made ValidationError α) : Prop :=
  f [] = .err .empty ∧ ∀ v, (Str1 c v → f v = .ok (mk v)) ∧ ∀ b i, FirstBad c v b i → f v = .err (.invalidByteAt b i)

/-- Any byte but NUL. -/
def NotNul (b : UInt8) : Prop := b ≠ 0

/-- The name `v` equals INBOX, whatever the letter case. -/
def IsInbox (v : Bytes) : Prop := lowerAll v = b!"inbox"

/-- The mailbox that a name denotes: `Inbox` for all variants of INBOX, otherwise a mailbox with the very same name. -/
def Names (m : Mailbox) (v : Bytes) : Prop :=
  (IsInbox v ∧ m = .inbox) ∨ (¬ IsInbox v ∧ ∃ s, m = .other s ∧ s.content = v)

/-- A byte string that can be sent: no NUL and less than 4 GiB. -/
def Sendable (v : Bytes) : Prop := 0 ∉ v ∧ v.length < 2 ^ 32

end Imap.Spec
