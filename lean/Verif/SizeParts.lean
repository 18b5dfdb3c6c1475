import Verif.Size
import Verif.Props.Printing
import Verif.Props.Sequence
set_option maxRecDepth 10000
/-! Sizes of the building blocks. -/
namespace Imap

/-! ### Lengths -/

theorem showNat_mono {a b : Nat} (h : a ≤ b) : (showNat a).length ≤ (showNat b).length := by
  induction b using Nat.strongRecOn generalizing a with
  | ind b ih =>
    rw [showNat.eq_1 a, showNat.eq_1 b]
    split <;> split
    · simp
    · simp
    · omega
    · have := ih (b / 10) (by omega) (a := a / 10) (by omega)
      simp only [List.length_append, List.length_cons, List.length_nil]
      omega

theorem showNat_pos (n : Nat) : 1 ≤ (showNat n).length := List.length_pos_iff.2 (showNat_ne_nil n)

theorem showNat_decVal (ds : Bytes) (h : ds.all isDigit = true) (hn : ds ≠ []) : (showNat (decVal ds)).length ≤ ds.length := by
  induction ds using List.reverseRecOn with
  | nil => exact absurd rfl hn
  | append_singleton ds d ih =>
    simp only [List.all_append, List.all_cons, List.all_nil, Bool.and_true, Bool.and_eq_true] at h
    have hd := digitVal_lt h.2
    rw [decVal_append_one, showNat]
    split
    · simp
    · rename_i h10
      have hne : ds ≠ [] := by rintro rfl; simp [decVal] at h10; omega
      have := ih h.1 hne
      rw [show (decVal ds * 10 + digitVal d) / 10 = decVal ds by omega]
      simp only [List.length_append, List.length_cons, List.length_nil]
      omega

theorem replace2_length (a b : UInt8) {t : Bytes} (ht : t.length ≤ 2) (s : Bytes) : (replace2 a b t s).length ≤ s.length := by
  induction s using replace2.induct (a := a) (b := b) with
  | case1 => simp [replace2]
  | case2 => simp [replace2]
  | case3 x y s h ih => simp only [replace2, h, if_true, List.length_append, List.length_cons]; omega
  | case4 x y s h ih =>
    simp only [replace2, h, List.length_cons] at ih ⊢
    simpa using ih

theorem unescape_length (s : Bytes) : (unescapeQuoted s).length ≤ s.length :=
  (replace2_length _ _ (by decide) _).trans (replace2_length _ _ (by decide) _)

theorem escape_length (s : Bytes) : (escapeQuoted s).length ≤ 2 * s.length := by
  rw [escapeQuoted_eq]
  induction s with
  | nil => simp
  | cons b s ih =>
    have : (esc1 b).length ≤ 2 := by revert b; exact forall_byte (by decide)
    simp only [List.flatMap_cons, List.length_append, List.length_cons]
    omega

theorem escape_unescape_length (s : Bytes) : (escapeQuoted (unescapeQuoted s)).length ≤ 2 * s.length := by
  have := escape_length (unescapeQuoted s)
  have := unescape_length s
  omega

@[simp] theorem lowerAll_length (s : Bytes) : (lowerAll s).length = s.length := by simp [lowerAll]
@[simp] theorem upperAll_length (s : Bytes) : (upperAll s).length = s.length := by simp [upperAll]

theorem length_of_lower {a l : Bytes} (h : lowerAll a = l) : a.length = l.length := by rw [← h]; simp
theorem length_of_upper {a l : Bytes} (h : upperAll a = l) : a.length = l.length := by rw [← h]; simp

/-! ### Core -/

theorem uses_digits {α : Type} {f : Bytes → Option α} {d : α → Nat}
    (h : ∀ ds v, ds.all isDigit = true → ds ≠ [] → f ds = some v → d v ≤ 2 * ds.length) : Uses (mapRes (takeWhile1 isDigit) f) d := by
  intro x r v hv
  unfold mapRes at hv
  split at hv
  · rename_i r' ds h1
    split at hv
    · rename_i w h2
      cases hv
      have := (inferInstance : Cost (takeWhile1 isDigit) _).uses _ _ _ h1
      have hp := (inferInstance : Canon (takeWhile1 isDigit) _).post _ _ _ h1
      have := h ds v hp.2 hp.1 h2
      omega
    · cases hv
  all_goals cases hv

instance : Cost number fun n => 2 * (showNat n).length := ⟨uses_digits fun ds v h1 h2 h => by
  split at h <;> cases h
  have := showNat_decVal ds h1 h2
  omega⟩
instance : Cost number64 fun n => 2 * (showNat n).length := ⟨uses_digits fun ds v h1 h2 h => by
  split at h <;> cases h
  have := showNat_decVal ds h1 h2
  omega⟩
instance : Cost nzNumber fun n => 2 * (showNat n).length := ⟨.mapRes Cost.uses fun a b h => by split at h <;> cases h; omega⟩
instance : Cost modSequenceValue fun n => 2 * (showNat n).length := ⟨.mapRes Cost.uses fun a b h => by split at h <;> cases h; omega⟩
instance : Cost modSequenceValzer fun n => 2 * (showNat n).length := inferInstanceAs (Cost number64 _)
instance : Cost quoted fun s => len (encQuoted s) + 2 := ⟨by
  unfold quoted
  uses
  rename_i s _
  have := escape_unescape_length s
  simp [encQuoted]
  omega⟩
instance : Cost quotedUtf8 fun s => len (encQuoted s) + 2 := ⟨by
  unfold quotedUtf8
  refine .bind Cost.uses fun _ => .bind (c := fun s => 2 * s.length) (.mapRes Cost.uses fun a b h => ?_) fun s => ?_
  · split at h <;> cases h; omega
  uses
  have := escape_unescape_length s
  simp [encQuoted]
  omega⟩
instance : Cost quotedChar fun _ => 2 := ⟨by
  unfold quotedChar
  uses
  · omega
  · simp⟩
instance [Quirks] (t : Bytes) : Cost (literalHdr t) fun v => 2 * t.length + 2 * (showNat v.1).length + (if v.2 = .nonSync then 6 else 4) := ⟨by
  unfold literalHdr
  uses
  rename_i n o _ _
  cases o <;> simp <;> omega⟩
instance (n : Nat) (m : Mode) : Cost (literalData n m) fun d => 2 * d.length + (showNat d.length).length - (showNat n).length := ⟨fun x r v hv => by
  unfold literalData at hv
  split at hv
  · cases hv
  · unfold take at hv
    split at hv
    · cases hv
    · cases hv; simp; rw [Nat.min_eq_left (by omega)]; omega⟩
instance [Quirks] : Cost literal fun l => len l.enc + 2 := ⟨by
  unfold literal
  uses
  rename_i v d
  obtain ⟨n, m⟩ := v
  split
  · refine .pure ?_
    have := showNat_pos d.length
    cases m <;> simp [Literal.enc] <;> omega
  · uses⟩
instance [Quirks] : Cost literal8 fun l => len l.enc + 2 := ⟨by
  unfold literal8
  uses
  rename_i v d
  obtain ⟨n, m⟩ := v
  have := showNat_pos d.length
  cases m <;> simp [Literal8.enc] <;> omega⟩
instance [Quirks] : Cost string fun s => len s.enc + 2 := ⟨by
  unfold string
  uses <;> simp [IString.enc]⟩
instance [Quirks] : Cost astring fun s => len s.enc := ⟨by
  unfold astring
  uses <;> simp [AString.enc] <;> omega⟩
instance : Cost atom fun s => 2 * s.length := inferInstanceAs (Cost (takeWhile1 _) _)
instance : Cost nil fun _ => 6 := inferInstanceAs (Cost (tagNC _) _)
instance [Quirks] : Cost nstring fun s => len (encNString s) + 2 := ⟨by
  unfold nstring
  uses <;> simp [encNString]⟩
instance : Cost text fun s => 2 * s.length := inferInstanceAs (Cost (takeWhile1 _) _)
instance : Cost base64 fun d => 2 * (b64Encode d).length := ⟨by
  unfold base64
  refine .mapRes (.recognize (c := fun _ => 0) ?_) fun a b h => ?_
  · refine .bind Cost.uses fun a => .mono (.opt (c := fun _ => 0) ?_) fun v => by cases v <;> simp
    uses <;> omega
  · rw [b64_encode_decode _ _ h]⟩
instance : Cost charset fun s => len s.enc := ⟨by
  unfold charset
  uses <;> simp [Charset.enc] <;> omega⟩
instance : Cost tagImap fun s => 2 * s.length := inferInstanceAs (Cost (takeWhile1 _) _)

/-! ### Sequence sets -/

instance : Cost seqNumber fun a => 2 * len a.enc := ⟨by
  unfold seqNumber
  uses <;> simp [SeqOrUid.enc]⟩
instance : Cost seqRange fun a => 2 * (len a.1.enc + 1 + len a.2.enc) := ⟨by
  unfold seqRange
  sizes []⟩

/-- The size of the text of a sequence as it is. -/
def Sequence.size : Sequence → Nat
  | .single a => len a.enc
  | .range a b => len a.enc + 1 + len b.enc

theorem Sequence.size_normalize (s : Sequence) : s.normalize.size ≤ s.size := by
  cases s with
  | single a => simp [Sequence.normalize]
  | range a b =>
    simp only [Sequence.normalize]
    split
    · simp only [Sequence.size]; omega
    · split <;> simp only [Sequence.size] <;> omega

theorem Sequence.len_enc [Quirks] (s : Sequence) : len s.enc ≤ s.size := by
  have h : ∀ s : Sequence, len (match s with | .single a => a.enc | .range a b => a.enc ++ [.wr b!":"] ++ b.enc) = s.size := by
    intro s
    cases s <;> simp [Sequence.size] <;> omega
  refine Nat.le_trans (Nat.le_of_eq (h _)) ?_
  split
  · exact s.size_normalize
  · exact Nat.le_refl _

theorem ofNZ_size (n : Nat) : len (SeqOrUid.ofNZ n).enc ≤ (showNat n).length := by
  have := showNat_pos n
  unfold SeqOrUid.ofNZ
  split <;> simp [SeqOrUid.enc]
  omega

theorem ofNZ_toNZ_size (a : SeqOrUid) : len (SeqOrUid.ofNZ a.toNZ).enc ≤ len a.enc := by
  cases a with
  | value n => simpa [SeqOrUid.enc, SeqOrUid.toNZ] using ofNZ_size n
  | asterisk => simp [SeqOrUid.ofNZ, SeqOrUid.toNZ]

/-- The size of the text of the last number of a half-open range. -/
def lastSize (n : Nat) : Nat := if n = u32Max then 1 else len (SeqOrUid.ofNZ (max n 2 - 1)).enc

theorem SeqOrUid.enc_pos (a : SeqOrUid) : 1 ≤ len a.enc := by
  cases a with
  | value n => simpa [SeqOrUid.enc] using showNat_pos n
  | asterisk => simp [SeqOrUid.enc]

theorem lastSize_satSucc (a : SeqOrUid) (h : a.wf = true) : lastSize (satSucc a.toNZ) ≤ len a.enc := by
  have hp := a.enc_pos
  unfold lastSize
  by_cases hm : satSucc a.toNZ = u32Max
  · rwa [if_pos hm]
  · rw [if_neg hm]
    unfold satSucc at *
    split at hm
    · rename_i hlt
      rw [if_pos hlt]
      cases a with
      | value n =>
        have h1 : 1 ≤ n := by simp [SeqOrUid.wf, isNonZeroU32] at h; omega
        have := ofNZ_toNZ_size (.value n)
        simp only [SeqOrUid.toNZ] at *
        rw [show max (n + 1) 2 - 1 = n by omega]
        exact this
      | asterisk => simp [SeqOrUid.toNZ] at hlt
    · exact absurd rfl hm

theorem ofHalfOpen_size (r : Nat × Nat) : (ofHalfOpen r).size ≤ len (SeqOrUid.ofNZ r.1).enc + 1 + lastSize r.2 := by
  unfold ofHalfOpen lastSize
  split
  · simp [Sequence.size]; omega
  · split
    · simp [Sequence.size, SeqOrUid.enc]
    · simp [Sequence.size]

theorem first_size (r : Nat × Nat) : len (SeqOrUid.ofNZ r.1).enc ≤ (ofHalfOpen r).size := by
  unfold ofHalfOpen
  split
  · simp [Sequence.size]
  · split <;> simp [Sequence.size] <;> omega

theorem last_size (r : Nat × Nat) (h : Good r) : lastSize r.2 ≤ (ofHalfOpen r).size := by
  obtain ⟨h1, h2, h3⟩ := h
  have hp := (SeqOrUid.ofNZ r.1).enc_pos
  unfold lastSize ofHalfOpen
  by_cases hm : r.2 = u32Max
  · rw [if_pos hm]
    split
    · exact hp
    · simp only [Sequence.size]; omega
  · rw [if_neg hm, if_neg hm]
    split
    · rename_i h
      have : max r.2 2 - 1 = r.1 := by simp only [satSucc] at h; split at h <;> omega
      rw [this]
      exact Nat.le_refl _
    · simp only [Sequence.size]; omega

theorem merge_size (last : Nat × Nat) (l : List (Nat × Nat)) (hl : Good last) (h : ∀ r ∈ l, Good r) (hs : ∀ r ∈ l, last.1 ≤ r.1)
    (hp : l.Pairwise fun a b => a.1 ≤ b.1) :
    total (fun r => (ofHalfOpen r).size + 1) (mergeLoop last l) ≤ (ofHalfOpen last).size + 1 + total (fun r => (ofHalfOpen r).size + 1) l := by
  induction l generalizing last with
  | nil => simp [mergeLoop]
  | cons r l ih =>
    have hr := h r (by simp)
    have hs' := hs r (by simp)
    rw [List.pairwise_cons] at hp
    rw [mergeLoop]
    split
    · have hg : Good (last.1, max last.2 r.2) := by unfold Good at *; simp only; omega
      have := ih _ hg (fun r hr => h r (by simp [hr])) (fun r hr => hs r (by simp [hr])) hp.2
      have key : (ofHalfOpen (last.1, max last.2 r.2)).size ≤ (ofHalfOpen last).size + ((ofHalfOpen r).size + 1) := by
        by_cases hm : r.2 ≤ last.2
        · rw [show max last.2 r.2 = last.2 by omega]; exact Nat.le_add_right _ _
        · have h1 := ofHalfOpen_size (last.1, r.2)
          have h2 := first_size last
          have h3 := last_size r hr
          rw [show max last.2 r.2 = r.2 by omega]
          simp only at h1
          omega
      simp only [total_cons]
      omega
    · have := ih r hr (fun r hr => h r (by simp [hr])) hp.1 hp.2
      simp only [total_cons]
      omega

theorem total_perm {α : Type} (c : α → Nat) {l l' : List α} (h : l.Perm l') : total c l = total c l' := by
  induction h with
  | nil => rfl
  | cons a _ ih => simp [ih]
  | swap a b l => simp; omega
  | trans _ _ h1 h2 => exact h1.trans h2

theorem total_mono' {α : Type} {c d : α → Nat} {l : List α} (h : ∀ a ∈ l, c a ≤ d a) : total c l ≤ total d l := by
  induction l with
  | nil => simp
  | cons a l ih =>
    simp only [total_cons]
    have := h a (by simp)
    have := ih fun a ha => h a (by simp [ha])
    omega

theorem halfOpen_size (s : Sequence) (h : s.wf = true) : (ofHalfOpen s.normalize.toHalfOpen).size ≤ s.size := by
  have hn := s.size_normalize
  have hw : s.normalize.wf = true := by
    cases s with
    | single a => exact h
    | range a b =>
      simp only [Sequence.wf, Bool.and_eq_true] at h
      simp only [Sequence.normalize]
      split
      · exact h.1
      · split <;> simp [Sequence.wf, h.1, h.2]
  refine Nat.le_trans ?_ hn
  generalize s.normalize = s at *
  cases s with
  | single a =>
    have := ofNZ_toNZ_size a
    simp [Sequence.toHalfOpen, ofHalfOpen, Sequence.size, this]
  | range a b =>
    simp only [Sequence.wf, Bool.and_eq_true] at hw
    have h1 := ofHalfOpen_size (Sequence.range a b).toHalfOpen
    have h2 := ofNZ_toNZ_size a
    have h3 := lastSize_satSucc b hw.2
    simp only [Sequence.toHalfOpen, Sequence.size] at *
    omega

theorem normalize_size (s : SequenceSet) (h : s.wf = true) :
    total (fun r => r.size + 1) s.normalize ≤ total (fun r => r.size + 1) s := by
  rw [normalize_eq s h, canon, total_map]
  have hg := halfOpen_good s h
  have h1 : total (fun r => (ofHalfOpen r).size + 1) ((s.map Sequence.normalize).map Sequence.toHalfOpen) ≤ total (fun r => r.size + 1) s := by
    rw [total_map, total_map]
    refine total_mono' fun a ha => ?_
    have hw : a.wf = true := by
      simp only [SequenceSet.wf, Bool.and_eq_true, List.all_eq_true] at h
      exact h.2 a ha
    have := halfOpen_size a hw
    omega
  refine Nat.le_trans ?_ h1
  have hp := sortByKey_perm Prod.fst ((s.map Sequence.normalize).map Sequence.toHalfOpen)
  have hs := sortByKey_sorted Prod.fst ((s.map Sequence.normalize).map Sequence.toHalfOpen)
  rw [← total_perm _ hp]
  have hg' : ∀ r ∈ sortByKey Prod.fst ((s.map Sequence.normalize).map Sequence.toHalfOpen), Good r := fun r hr => hg r (hp.mem_iff.1 hr)
  generalize sortByKey Prod.fst ((s.map Sequence.normalize).map Sequence.toHalfOpen) = l at *
  cases l with
  | nil => simp [mergeSorted]
  | cons r l =>
    rw [List.pairwise_cons] at hs
    exact merge_size r l (hg' r (by simp)) (fun q hq => hg' q (by simp [hq])) hs.1 hs.2

theorem encSet_size [Quirks] (s : SequenceSet) (h : s.wf = true) : len (encSet s) ≤ total Sequence.size s + (s.length - 1) := by
  have hn : total (fun r => r.size + 1) (normSet s) ≤ total (fun r => r.size + 1) s := by
    unfold normSet
    split
    · exact normalize_size s h
    · exact Nat.le_refl _
  have hm : total (fun q => len (Sequence.enc q)) (normSet s) ≤ total Sequence.size (normSet s) := total_mono Sequence.len_enc _
  have hl : s ≠ [] := by
    rintro rfl
    simp [SequenceSet.wf] at h
  have := List.length_pos_iff.2 hl
  rw [total_sep, total_sep] at hn
  simp only [encSet, len_join, total_map, List.length_map, List.length_cons, List.length_nil]
  cases hl : normSet s with
  | nil => simp
  | cons a l =>
    rw [hl] at hn hm
    simp only [List.length_cons] at *
    omega

instance [Quirks] : Cost sequenceSet fun s => 2 * len (encSet s) := ⟨fun x r v hv => by
  have hw := (inferInstance : Canon sequenceSet _).post _ _ _ hv
  have hc : Uses sequenceSet fun l => total (fun s => 2 * Sequence.size s) l + (2 * 1) * (l.length - 1) := by
    unfold sequenceSet
    refine .sepList1 Cost.uses ?_
    sizes [Sequence.size]
  have h1 := hc _ _ _ hv
  have h2 := encSet_size v hw
  simp only [total_mul] at h1
  omega⟩

/-! ### Mailboxes, flags -/

instance [Quirks] : Cost mailbox fun m => len m.enc := ⟨by
  unfold mailbox
  refine .map Cost.uses fun s => ?_
  unfold Mailbox.ofAString
  split
  · rename_i h
    have hl := length_of_lower (eqIC_iff.1 h)
    simp only [lowerAll_length] at hl
    simp only [Mailbox.enc, len_wr, len_nil]
    cases s with
    | atom s => simp [AString.content, AString.enc] at *; omega
    | string s =>
      have he : ∀ s : Bytes, s.length ≤ (escapeQuoted s).length := fun s => by
        rw [escapeQuoted_eq]
        induction s with
        | nil => simp
        | cons b s ih =>
          have : 1 ≤ (esc1 b).length := by revert b; exact forall_byte (by decide)
          simp only [List.flatMap_cons, List.length_append, List.length_cons]
          omega
      cases s with
      | literal l => obtain ⟨d, m⟩ := l; cases m <;> simp [AString.content, IString.content, AString.enc, IString.enc, Literal.enc] at * <;> omega
      | quoted s =>
        have := he s
        simp [AString.content, IString.content, AString.enc, IString.enc, encQuoted] at *; omega
      | quotedUtf8 s =>
        have := he s
        simp [AString.content, IString.content, AString.enc, IString.enc, encQuoted] at *; omega
  · exact Nat.le_refl _⟩
instance [Quirks] : Cost listMailbox fun m => len m.enc := ⟨by
  unfold listMailbox
  sizes [ListMailbox.enc]⟩

theorem Flag.system_size (a : Bytes) : len (Flag.system a).enc ≤ a.length + 1 := by
  unfold Flag.system
  dsimp only
  repeat' (split; rename_i h; have := length_of_lower h; simp [Flag.enc] at *; omega)
  simp [Flag.enc]

instance : Cost flag fun f => 2 * len f.enc := ⟨by
  unfold flag
  uses
  · rename_i a
    have := Flag.system_size a
    omega
  · simp [Flag.enc]⟩
instance : Cost flagList fun l => 2 * len (join b!" " (l.map Flag.enc)) + 4 := ⟨by
  unfold flagList
  sizes []⟩
instance : Cost flagFetch fun f => 2 * len f.enc := ⟨fun x r v hv => by
  have hf : Uses (FlagFetch.flag <$> flag : P FlagFetch) fun f => 2 * len f.enc := by
    uses
    simp [FlagFetch.enc]
  unfold flagFetch at hv
  split at hv
  · rename_i r' p h1
    split at hv
    · rename_i h2
      cases hv
      have := Uses.recognize (Cost.uses (p := do char 92; atom)) _ _ _ h1
      have hl := length_of_lower (eqIC_iff.1 h2)
      simp [FlagFetch.enc] at *
      omega
    · exact hf _ _ _ hv
  · exact hf _ _ _ hv⟩
instance : Cost flagPerm fun f => 2 * len f.enc := ⟨by
  unfold flagPerm
  sizes [FlagPerm.enc]⟩

theorem FlagNameAttribute.ofAtom_size (a : Bytes) : len (FlagNameAttribute.ofAtom a).enc ≤ a.length + 1 := by
  unfold FlagNameAttribute.ofAtom
  dsimp only
  repeat' (split; rename_i h; have := length_of_lower h; simp [FlagNameAttribute.enc] at *; omega)
  simp [FlagNameAttribute.enc]

instance : Cost mbxListFlags fun l => 2 * len (join b!" " (l.map FlagNameAttribute.enc)) := ⟨by
  unfold mbxListFlags
  refine .mono (.sepList1 Cost.uses (c := fun f => 2 * len f.enc) ?_) fun l => by simp [len_join, total_mul]; omega
  uses
  rename_i a
  have := FlagNameAttribute.ofAtom_size a
  omega⟩

/-! ### Dates -/

@[simp] theorem show2_length (n : Nat) : (show2 n).length = 2 := rfl
@[simp] theorem show4_length (n : Nat) : (show4 n).length = 4 := rfl

instance : Cost digit12 fun _ => 2 := ⟨by unfold digit12; uses; omega⟩
instance : Cost digit2 fun _ => 4 := ⟨by unfold digit2; uses; omega⟩
instance : Cost digit4 fun _ => 8 := ⟨by unfold digit4; uses; omega⟩
instance : Cost dateMonth fun m => 2 * (monthName m).length := ⟨by unfold dateMonth; sizes [monthName]⟩

theorem monthName_length (m : Nat) : (monthName m).length ≤ 3 := by
  unfold monthName
  split <;> simp

/-- The size of a date that may not exist. -/
def dateSize : Option NaiveDate → Nat
  | none => 0
  | some d => len d.enc

instance : Cost dateText fun d => dateSize d + 1 := ⟨by
  unfold dateText
  uses
  rename_i d _ m _ y
  unfold fromYmdOpt
  have := monthName_length m
  split
  · simp [dateSize, NaiveDate.enc, showDate]; omega
  · simp [dateSize]⟩
instance : Cost date fun d => dateSize d := ⟨by
  unfold date
  sizes []⟩
instance : Cost dateSome fun d => len d.enc := ⟨by
  unfold dateSome
  refine .mapRes Cost.uses fun a b h => ?_
  cases h
  exact Nat.le_refl _⟩
instance : Cost time fun _ => 16 := ⟨by
  unfold time
  sizes []⟩
instance : Cost dateDayFixed fun _ => 4 := ⟨by
  unfold dateDayFixed
  sizes []⟩
instance : Cost zone fun _ => 10 := ⟨by
  unfold zone
  refine .bind (c := fun _ => 2) ?_ fun _ => ?_ <;> sizes []⟩
instance : Cost dateTime fun t => len t.enc := ⟨by
  unfold dateTime
  uses
  rename_i d _ m _ y _ t _ z _
  unfold mkDateTime
  split
  · refine .pure ?_
    simp [DateTime.enc, showDate, showZone]
    have := monthName_length m
    rename_i h
    unfold fromYmdOpt at h
    split at h <;> cases h
    split <;> simp <;> omega
  · uses⟩

/-! ### Authentication -/

theorem AuthMechanism.ofAtom_size (a : Bytes) : (AuthMechanism.ofAtom a).name.length ≤ a.length := by
  unfold AuthMechanism.ofAtom
  dsimp only
  repeat' (split; rename_i h; have := length_of_upper h; simp [AuthMechanism.name] at *; omega)
  simp [AuthMechanism.name]

instance : Cost authType fun m => 2 * m.name.length := ⟨by
  unfold authType
  uses
  rename_i a
  have := AuthMechanism.ofAtom_size a
  omega⟩
instance [Quirks] : Cost authenticateData fun d => len d.enc := ⟨by
  unfold authenticateData
  refine .altCons (.map (c := fun d => (b64Encode d).length + 2) ?_ fun d => by simp [AuthenticateData.enc]) ?_ <;> sizes [AuthenticateData.enc]⟩
instance [Quirks] : Cost idleDone fun _ => len encIdleDone := ⟨by
  unfold idleDone
  sizes [encIdleDone]⟩
instance [Quirks] : Cost statusAtt fun s => 2 * len s.enc := ⟨by
  unfold statusAtt
  sizes [StatusDataItemName.enc]⟩

end Imap
