import Verif.Codec
/-
Specification: what it means that two inputs, and two results, are the same except for the letter case.
-/
namespace Imap.Spec

open Imap

/-- The lowercase variant of an ASCII letter; all other bytes are left alone. -/
def small (b : UInt8) : UInt8 := if 65 ≤ b ∧ b ≤ 90 then b + 32 else b

/-- Two byte strings that differ at most in the case of ASCII letters. -/
def SameLetters (x y : Bytes) : Prop := x.map small = y.map small

instance (x y : Bytes) : Decidable (SameLetters x y) := inferInstanceAs (Decidable (_ = _))

/-- Values with all strings in them (names of mailboxes, flags, search terms, data of literals...) in lowercase. Two values with equal `fold` are the same
except for the letter case of strings: all numbers, dates, known names, options, the kind of each string, and so on, are equal. -/
class Fold (α : Type) where
  fold : α → α

export Fold (fold)

instance : Fold Unit := ⟨id⟩
instance : Fold Nat := ⟨id⟩
instance : Fold Bool := ⟨id⟩
instance : Fold UInt8 := ⟨small⟩
instance {α : Type} [Fold α] : Fold (Option α) := ⟨Option.map fold⟩
instance {α : Type} [Fold α] : Fold (List α) := ⟨List.map fold⟩
instance {α β : Type} [Fold α] [Fold β] : Fold (α × β) := ⟨fun x => (fold x.1, fold x.2)⟩

/-! ### Strings -/

instance : Fold Mode := ⟨id⟩
instance : Fold Literal := ⟨fun l => ⟨fold l.data, l.mode⟩⟩
instance : Fold Literal8 := ⟨fun l => ⟨fold l.data, l.mode⟩⟩

instance : Fold IString where
  fold
    | .literal l => .literal (fold l)
    | .quoted s => .quoted (fold s)
    | .quotedUtf8 s => .quotedUtf8 (fold s)

instance : Fold AString where
  fold
    | .atom s => .atom (fold s)
    | .string s => .string (fold s)

instance : Fold Charset where
  fold
    | .atom s => .atom (fold s)
    | .quoted s => .quoted (fold s)

instance : Fold LiteralOrLiteral8 where
  fold
    | .literal l => .literal (fold l)
    | .literal8 l => .literal8 (fold l)

instance : Fold NString8 where
  fold
    | .nstring s => .nstring (fold s)
    | .literal8 l => .literal8 (fold l)

/-! ### Parts of commands -/

instance : Fold SeqOrUid := ⟨id⟩
instance : Fold Sequence := ⟨id⟩
instance : Fold NaiveDate := ⟨id⟩
instance : Fold DateTime := ⟨id⟩
instance : Fold Int := ⟨id⟩
instance : Fold StatusDataItemName := ⟨id⟩
instance : Fold EntryTypeReq := ⟨id⟩
instance : Fold SelectParameter := ⟨id⟩
instance : Fold FetchModifier := ⟨id⟩
instance : Fold StoreType := ⟨id⟩
instance : Fold StoreResponse := ⟨id⟩
instance : Fold SortKey := ⟨id⟩
instance : Fold SortCriterion := ⟨id⟩
instance : Fold GetMetadataOption := ⟨id⟩

instance : Fold Mailbox where
  fold
    | .inbox => .inbox
    | .other s => .other (fold s)

instance : Fold ListMailbox where
  fold
    | .token s => .token (fold s)
    | .string s => .string (fold s)

instance : Fold Flag where
  fold
    | .extension s => .extension (fold s)
    | .keyword s => .keyword (fold s)
    | f => f

instance : Fold AttributeFlag where
  fold
    | .extension s => .extension (fold s)
    | .keyword s => .keyword (fold s)
    | f => f

instance : Fold AuthMechanism where
  fold
    | .other s => .other (fold s)
    | m => m

instance : Fold CapabilityEnable where
  fold
    | .other s => .other (fold s)
    | c => c

instance : Fold Resource where
  fold
    | .other s => .other (fold s)
    | r => r

instance : Fold QuotaSet := ⟨fun q => ⟨fold q.resource, q.limit⟩⟩

instance : Fold ThreadingAlgorithm where
  fold
    | .other s => .other (fold s)
    | a => a

instance : Fold EntryValue := ⟨fun e => ⟨fold e.entry, fold e.value⟩⟩

instance : Fold PartSpecifier where
  fold
    | .headerFields l => .headerFields (fold l)
    | .headerFieldsNot l => .headerFieldsNot (fold l)
    | p => p

instance : Fold Section where
  fold
    | .headerFields p l => .headerFields p (fold l)
    | .headerFieldsNot p l => .headerFieldsNot p (fold l)
    | s => s

instance : Fold MessageDataItemName where
  fold
    | .bodyExt s p k => .bodyExt (fold s) p k
    | n => n

instance : Fold MacroOrNames where
  fold
    | .macro_ m => .macro_ m
    | .names l => .names (fold l)

/-- Search keys with all strings in lowercase. -/
def foldKey : SearchKey → SearchKey
  | .and ks => .and (go ks)
  | .not k => .not (foldKey k)
  | .or a b => .or (foldKey a) (foldKey b)
  | .bcc s => .bcc (fold s)
  | .body s => .body (fold s)
  | .cc s => .cc (fold s)
  | .from_ s => .from_ (fold s)
  | .header n v => .header (fold n) (fold v)
  | .keyword a => .keyword (fold a)
  | .subject s => .subject (fold s)
  | .text s => .text (fold s)
  | .to s => .to (fold s)
  | .unkeyword a => .unkeyword (fold a)
  | .modSequence e n => .modSequence (fold e) n
  | k => k
where
  /-- All of the keys. -/
  go : List SearchKey → List SearchKey
    | [] => []
    | k :: ks => foldKey k :: go ks

instance : Fold SearchKey := ⟨foldKey⟩

/-! ### Commands -/

instance : Fold CommandBody where
  fold
    | .authenticate m d => .authenticate (fold m) d
    | .login u p => .login (fold u) (fold p)
    | .select m ps => .select (fold m) ps
    | .examine m ps => .examine (fold m) ps
    | .create m => .create (fold m)
    | .delete m => .delete (fold m)
    | .rename a b => .rename (fold a) (fold b)
    | .subscribe m => .subscribe (fold m)
    | .unsubscribe m => .unsubscribe (fold m)
    | .list r w => .list (fold r) (fold w)
    | .lsub r w => .lsub (fold r) (fold w)
    | .status m l => .status (fold m) l
    | .append m fs d msg => .append (fold m) (fold fs) d (fold msg)
    | .search c l u => .search (fold c) (fold l) u
    | .sort s c l u => .sort s (fold c) (fold l) u
    | .thread a c l u => .thread (fold a) (fold c) (fold l) u
    | .fetch s i u ms => .fetch s (fold i) u ms
    | .store s k r fs u ms => .store s k r (fold fs) u ms
    | .copy s m u => .copy s (fold m) u
    | .enable cs => .enable (fold cs)
    | .getQuota r => .getQuota (fold r)
    | .getQuotaRoot m => .getQuotaRoot (fold m)
    | .setQuota r qs => .setQuota (fold r) (fold qs)
    | .move s m u => .move s (fold m) u
    | .id ps => .id (fold ps)
    | .setMetadata m es => .setMetadata (fold m) (fold es)
    | .getMetadata os m es => .getMetadata os (fold m) (fold es)
    | c => c

instance : Fold Command := ⟨fun c => ⟨fold c.tag, fold c.body⟩⟩

/-! ### Inputs -/

/-- The beginning of an AUTHENTICATE command, up to and including the space after the name of the mechanism. What follows is base64, in
which the letter case matters. -/
def IsAuthenticate (p : Bytes) : Prop :=
  ∃ t w m, 32 ∉ t ∧ SameLetters w b!"AUTHENTICATE" ∧ 32 ∉ m ∧ p = t ++ b!" " ++ w ++ b!" " ++ m ++ b!" "

/-- Two inputs that differ at most in the case of letters, outside of base64. -/
def SameInput (x y : Bytes) : Prop :=
  SameLetters x y ∧ ∀ p z, IsAuthenticate p → x = p ++ z → ∃ q, y = q ++ z

/-- The names of the commands. -/
def commandNames : List Bytes :=
  [b!"APPEND", b!"AUTHENTICATE", b!"CAPABILITY", b!"CHECK", b!"CLOSE", b!"COMPRESS", b!"COPY", b!"CREATE", b!"DELETE", b!"ENABLE",
    b!"EXAMINE", b!"EXPUNGE", b!"FETCH", b!"GETMETADATA", b!"GETQUOTA", b!"GETQUOTAROOT", b!"ID", b!"IDLE", b!"LIST", b!"LOGIN",
    b!"LOGOUT", b!"LSUB", b!"MOVE", b!"NAMESPACE", b!"NOOP", b!"RENAME", b!"SEARCH", b!"SELECT", b!"SETMETADATA", b!"SETQUOTA",
    b!"SORT", b!"STARTTLS", b!"STATUS", b!"STORE", b!"SUBSCRIBE", b!"THREAD", b!"UNSELECT", b!"UNSUBSCRIBE",
    b!"UID COPY", b!"UID EXPUNGE", b!"UID FETCH", b!"UID MOVE", b!"UID SEARCH", b!"UID SORT", b!"UID STORE", b!"UID THREAD"]

/-! ### Results of decoding -/

/-- Two results of decoding that are the same except for the letter case of strings. -/
def SameOutcome {α : Type} [Fold α] : Outcome α → Outcome α → Prop
  | .ok r m, .ok r' m' => SameLetters r r' ∧ fold m = fold m'
  | .incomplete, .incomplete => True
  | .literalFound t n m, .literalFound t' n' m' => fold t = fold t' ∧ n = n' ∧ m = m'
  | .failed, .failed => True
  | _, _ => False

end Imap.Spec
