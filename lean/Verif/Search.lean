import Verif.Parts
/-
Search keys: imap-types/src/search.rs, imap-codec/src/search.rs, imap-codec/src/extensions/condstore_qresync.rs,
imap-codec/src/codec/encode.rs.
-/
namespace Imap

/-- `AttributeFlag` (imap-types/src/extensions/condstore_qresync.rs:11-22). -/
inductive AttributeFlag where
  | answered | deleted | draft | flagged | seen
  | extension (a : Bytes)
  | keyword (a : Bytes)
  deriving DecidableEq, Repr

/-- `AttributeFlag::system` (imap-types/src/extensions/condstore_qresync.rs:25-34). -/
def AttributeFlag.system (a : Bytes) : AttributeFlag :=
  let l := lowerAll a
  if l = b!"answered" then .answered
  else if l = b!"flagged" then .flagged
  else if l = b!"deleted" then .deleted
  else if l = b!"seen" then .seen
  else if l = b!"draft" then .draft
  else .extension a

/-- The type invariants of `AttributeFlag`: `AttributeFlagExtension` is only built by `system`. -/
def AttributeFlag.valid : AttributeFlag → Bool
  | .extension a => isAtom a && decide (AttributeFlag.system a = .extension a)
  | .keyword a => isAtom a
  | _ => true

/-- `Display for AttributeFlag` (imap-types/src/extensions/condstore_qresync.rs:56-68). -/
def AttributeFlag.enc : AttributeFlag → Bytes
  | .answered => b!"\\\\Answered"
  | .flagged => b!"\\\\Flagged"
  | .deleted => b!"\\\\Deleted"
  | .seen => b!"\\\\Seen"
  | .draft => b!"\\\\Draft"
  | .keyword a => a
  | .extension a => b!"\\\\" ++ a

/-- `attr_flag` (imap-codec/src/extensions/condstore_qresync.rs:98-103). -/
def attrFlag : P AttributeFlag :=
  alt [AttributeFlag.system <$> (do tag b!"\\\\"; atom), .keyword <$> atom]

/-- `EntryTypeReq` (imap-types/src/extensions/condstore_qresync.rs:70-78). -/
inductive EntryTypeReq where
  | private_ | shared | all
  deriving DecidableEq, Repr

/-- `Display for EntryTypeReq` (imap-types/src/extensions/condstore_qresync.rs:80-89). -/
def EntryTypeReq.enc : EntryTypeReq → Bytes
  | .private_ => b!"priv"
  | .shared => b!"shared"
  | .all => b!"all"

/-- `entry_type_req` (imap-codec/src/extensions/condstore_qresync.rs:133-139). -/
def entryTypeReq : P EntryTypeReq :=
  alt [value .private_ (tagNC b!"priv"), value .shared (tagNC b!"shared"), value .all (tagNC b!"all")]

/-- `entry_name`, `entry_flag_name` (imap-codec/src/extensions/condstore_qresync.rs:67-86). -/
def entryName : P AttributeFlag := do
  tagNC b!"\"/flags/"
  let f ← attrFlag
  char 34
  return f

/-- `search_modseq_ext` (imap-codec/src/extensions/condstore_qresync.rs:62-64). -/
def searchModseqExt : P (AttributeFlag × EntryTypeReq) := do
  sp
  let f ← entryName
  sp
  let t ← entryTypeReq
  return (f, t)

/-- `mod_sequence_value` (imap-codec/src/extensions/condstore_qresync.rs:31-33). -/
def modSequenceValue : P Nat := mapRes number64 fun n => if n = 0 then none else some n

/-- `mod_sequence_valzer` (imap-codec/src/extensions/condstore_qresync.rs:22-24). -/
def modSequenceValzer : P Nat := number64

/-- `search_modsequence` (imap-codec/src/extensions/condstore_qresync.rs:50-57). -/
def searchModsequence : P (Option (AttributeFlag × EntryTypeReq) × Nat) := do
  tagNC b!"MODSEQ"
  let e ← opt searchModseqExt
  sp
  let n ← modSequenceValzer
  return (e, n)

/-- `SearchKey` (imap-types/src/search.rs:19-171). `Keyword` and `Unkeyword` carry an `Atom`. -/
inductive SearchKey where
  | and (keys : List SearchKey)
  | sequenceSet (s : SequenceSet)
  | all | answered
  | bcc (s : AString)
  | before (d : NaiveDate)
  | body (s : AString)
  | cc (s : AString)
  | deleted | draft | flagged
  | from_ (s : AString)
  | header (name value : AString)
  | keyword (a : Bytes)
  | larger (n : Nat)
  | new
  | not (k : SearchKey)
  | old
  | on (d : NaiveDate)
  | or (a b : SearchKey)
  | recent | seen
  | sentBefore (d : NaiveDate)
  | sentOn (d : NaiveDate)
  | sentSince (d : NaiveDate)
  | since (d : NaiveDate)
  | smaller (n : Nat)
  | subject (s : AString)
  | text (s : AString)
  | to (s : AString)
  | uid (s : SequenceSet)
  | unanswered | undeleted | undraft | unflagged
  | unkeyword (a : Bytes)
  | unseen
  | modSequence (entry : Option (AttributeFlag × EntryTypeReq)) (modseq : Nat)

/-- The type invariants of the entry of `SearchKey::ModSequence`. -/
def isEntryOpt : Option (AttributeFlag × EntryTypeReq) → Bool
  | none => true
  | some (f, _) => f.valid

/-- The type invariants of `SearchKey`. -/
def SearchKey.valid [q : Quirks] : SearchKey → Bool
  | .and ks => !ks.isEmpty && go ks
  | .sequenceSet s => s.wf
  | .bcc s | .body s | .cc s | .from_ s | .subject s | .text s | .to s => s.valid
  | .before d | .on d | .sentBefore d | .sentOn d | .sentSince d | .since d => d.valid
  | .header n v => n.valid && v.valid
  | .keyword a | .unkeyword a => isAtom a
  | .larger n | .smaller n => n < 4294967296
  | .not k => k.valid
  | .or a b => a.valid && b.valid
  | .uid s => s.wf
  | .modSequence e n => q.extCondstoreQresync && isEntryOpt e && n < 18446744073709551616
  | .all | .answered | .deleted | .draft | .flagged | .new | .old | .recent | .seen | .unanswered | .undeleted | .undraft
  | .unflagged | .unseen => true
where
  /-- `valid` of every key. -/
  go : List SearchKey → Bool
    | [] => true
    | k :: ks => k.valid && go ks

/-- The number of nested search keys. -/
def SearchKey.depth : SearchKey → Nat
  | .and ks => go ks + 1
  | .not k => k.depth + 1
  | .or a b => max a.depth b.depth + 1
  | _ => 1
where
  /-- The maximal depth. -/
  go : List SearchKey → Nat
    | [] => 0
    | k :: ks => max k.depth (go ks)

/-- `SearchKey::ModSequence` (imap-codec/src/codec/encode.rs:1007-1015). -/
def encModSequence (e : Option (AttributeFlag × EntryTypeReq)) (n : Nat) : List W :=
  [.wr b!"MODSEQ"] ++ (match e with
    | none => []
    | some (f, t) => [.wr b!" \"/flags/", .wr f.enc, .wr b!"\"", .wr b!" ", .wr t.enc]) ++ [.wr b!" ", .wr (showNat n)]

/-- `SearchKey::encode_ctx` (imap-codec/src/codec/encode.rs:907-1024). -/
def SearchKey.enc [Quirks] : SearchKey → List W
  | .all => [.wr b!"ALL"]
  | .answered => [.wr b!"ANSWERED"]
  | .bcc s => .wr b!"BCC " :: s.enc
  | .before d => .wr b!"BEFORE " :: d.enc
  | .body s => .wr b!"BODY " :: s.enc
  | .cc s => .wr b!"CC " :: s.enc
  | .deleted => [.wr b!"DELETED"]
  | .flagged => [.wr b!"FLAGGED"]
  | .from_ s => .wr b!"FROM " :: s.enc
  | .keyword a => [.wr b!"KEYWORD ", .wr a]
  | .new => [.wr b!"NEW"]
  | .old => [.wr b!"OLD"]
  | .on d => .wr b!"ON " :: d.enc
  | .recent => [.wr b!"RECENT"]
  | .seen => [.wr b!"SEEN"]
  | .since d => .wr b!"SINCE " :: d.enc
  | .subject s => .wr b!"SUBJECT " :: s.enc
  | .text s => .wr b!"TEXT " :: s.enc
  | .to s => .wr b!"TO " :: s.enc
  | .unanswered => [.wr b!"UNANSWERED"]
  | .undeleted => [.wr b!"UNDELETED"]
  | .unflagged => [.wr b!"UNFLAGGED"]
  | .unkeyword a => [.wr b!"UNKEYWORD ", .wr a]
  | .unseen => [.wr b!"UNSEEN"]
  | .draft => [.wr b!"DRAFT"]
  | .header n v => .wr b!"HEADER " :: n.enc ++ .wr b!" " :: v.enc
  | .larger n => [.wr b!"LARGER ", .wr (showNat n)]
  | .not k => .wr b!"NOT " :: k.enc
  | .or a b => .wr b!"OR " :: a.enc ++ .wr b!" " :: b.enc
  | .sentBefore d => .wr b!"SENTBEFORE " :: d.enc
  | .sentOn d => .wr b!"SENTON " :: d.enc
  | .sentSince d => .wr b!"SENTSINCE " :: d.enc
  | .smaller n => [.wr b!"SMALLER ", .wr (showNat n)]
  | .uid s => .wr b!"UID " :: encSet s
  | .undraft => [.wr b!"UNDRAFT"]
  | .modSequence e n => encModSequence e n
  | .sequenceSet s => encSet s
  | .and ks => .wr b!"(" :: join b!" " (go ks) ++ [.wr b!")"]
where
  /-- The encodings of the keys. -/
  go : List SearchKey → List (List W)
    | [] => []
    | k :: ks => k.enc :: go ks

/-- What the decoder returns for an encoded key: the encoder normalizes sequence sets, depending on a quirk. -/
def SearchKey.norm [Quirks] : SearchKey → SearchKey
  | .sequenceSet s => .sequenceSet (normSet s)
  | .uid s => .uid (normSet s)
  | .not k => .not k.norm
  | .or a b => .or a.norm b.norm
  | .and ks => .and (go ks)
  | k => k
where
  /-- `norm` of every key. -/
  go : List SearchKey → List SearchKey
    | [] => []
    | k :: ks => k.norm :: go ks

/-- `map_opt(date, |date| date)`. -/
def dateSome : P NaiveDate := mapRes date id

/-- `search_key_limited` (imap-codec/src/search.rs:103-224). The argument is `remaining_recursion`. The code nests two `alt`s,
which is the same as one. -/
def searchKey [Quirks] : Nat → P SearchKey
  | 0 => fun _ => .failure .recursionLimit
  | n + 1 =>
    alt [value .all (tagNC b!"ALL"),
      value .answered (tagNC b!"ANSWERED"),
      .bcc <$> (do tagNC b!"BCC"; sp; astring),
      .before <$> (do tagNC b!"BEFORE"; sp; dateSome),
      .body <$> (do tagNC b!"BODY"; sp; astring),
      .cc <$> (do tagNC b!"CC"; sp; astring),
      value .deleted (tagNC b!"DELETED"),
      value .flagged (tagNC b!"FLAGGED"),
      .from_ <$> (do tagNC b!"FROM"; sp; astring),
      .keyword <$> (do tagNC b!"KEYWORD"; sp; atom),
      value .new (tagNC b!"NEW"),
      value .old (tagNC b!"OLD"),
      .on <$> (do tagNC b!"ON"; sp; dateSome),
      value .recent (tagNC b!"RECENT"),
      value .seen (tagNC b!"SEEN"),
      .since <$> (do tagNC b!"SINCE"; sp; dateSome),
      .subject <$> (do tagNC b!"SUBJECT"; sp; astring),
      .text <$> (do tagNC b!"TEXT"; sp; astring),
      .to <$> (do tagNC b!"TO"; sp; astring),
      value .unanswered (tagNC b!"UNANSWERED"),
      value .undeleted (tagNC b!"UNDELETED"),
      value .unflagged (tagNC b!"UNFLAGGED"),
      .unkeyword <$> (do tagNC b!"UNKEYWORD"; sp; atom),
      value .unseen (tagNC b!"UNSEEN"),
      value .draft (tagNC b!"DRAFT"),
      do tagNC b!"HEADER"; sp; let k ← astring; sp; let v ← astring; return .header k v,
      .larger <$> (do tagNC b!"LARGER"; sp; number),
      .not <$> (do tagNC b!"NOT"; sp; searchKey n),
      do tagNC b!"OR"; sp; let a ← searchKey n; sp; let b ← searchKey n; return .or a b,
      .sentBefore <$> (do tagNC b!"SENTBEFORE"; sp; dateSome),
      .sentOn <$> (do tagNC b!"SENTON"; sp; dateSome),
      .sentSince <$> (do tagNC b!"SENTSINCE"; sp; dateSome),
      .smaller <$> (do tagNC b!"SMALLER"; sp; number),
      .uid <$> (do tagNC b!"UID"; sp; sequenceSet),
      value .undraft (tagNC b!"UNDRAFT"),
      gate Quirks.extCondstoreQresync ((fun x => .modSequence x.1 x.2) <$> searchModsequence),
      .sequenceSet <$> sequenceSet,
      .and <$> (do tag b!"("; let ks ← sepList1 sp (searchKey n); tag b!")"; return ks)]

/-- `search_criteria` (imap-codec/src/search.rs:231-241). -/
def searchCriteria [Quirks] : P (Charset × List SearchKey) := do
  let c ← charset
  sp
  let ks ← sepList1 sp (searchKey 9)
  return (c, ks)

end Imap
