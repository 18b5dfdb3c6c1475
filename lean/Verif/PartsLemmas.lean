import Verif.Parts
import Verif.ListLemmas
import Verif.Props.Sequence
import Mathlib.Tactic.Tauto
import Mathlib.Data.List.Induction
/-
Facts about the building blocks of messages: niceness, postconditions, round trips.
-/
set_option maxRecDepth 10000

namespace Imap

variable [Quirks]

instance : Nice seqNumber := by unfold seqNumber; infer_instance
instance : Nice seqRange := by unfold seqRange; infer_instance
instance : Nice sequenceSet := by unfold sequenceSet; infer_instance
instance : Nice mailbox := by unfold mailbox; infer_instance
instance : Nice listMailbox := by unfold listMailbox; infer_instance
instance : Nice flag := by unfold flag; infer_instance
instance : Nice flagList := by unfold flagList; infer_instance
instance : Nice flagPerm := by unfold flagPerm; infer_instance
instance : Nice mbxListFlags := by unfold mbxListFlags; infer_instance
instance : Nice digit12 := by unfold digit12; infer_instance
instance : Nice digit2 := by unfold digit2; infer_instance
instance : Nice digit4 := by unfold digit4; infer_instance
instance : Nice dateMonth := by unfold dateMonth; infer_instance
instance : Nice dateText := by unfold dateText; infer_instance
instance : Nice date := by unfold date; infer_instance
instance : Nice time := by unfold time; infer_instance
instance : Nice dateDayFixed := by unfold dateDayFixed; infer_instance
instance : Nice zone := by unfold zone; infer_instance
instance : Nice authType := by unfold authType; infer_instance
instance : Nice authenticateData := by unfold authenticateData; infer_instance
instance : Nice idleDone := by unfold idleDone; infer_instance
instance : Nice statusAtt := by unfold statusAtt; infer_instance

instance (d t z) : Nice (mkDateTime d t z) := by unfold mkDateTime; split <;> infer_instance
set_option synthInstance.maxSize 1000 in
set_option synthInstance.maxHeartbeats 200000 in
instance : Nice dateTime := by unfold dateTime; infer_instance

/-! ### Sequence sets -/

omit [Quirks] in
theorem normSet_wf [Quirks] {s : SequenceSet} (h : s.wf = true) : (normSet s).wf = true := by
  unfold normSet
  split
  · exact normalizeWith_wf _ _ s h (List.Perm.refl _) sortByKey_sorts
  · exact h

theorem normSet_fixed {s : SequenceSet} (h : s.wf = true) : ∀ q ∈ normSet s,
    (if Quirks.alwaysNormalizeSequenceSets then q.normalize else q) = q := by
  unfold normSet
  intro q hq
  split at hq
  · next hc =>
    rw [if_pos hc]
    rw [normalize_eq s h] at hq
    obtain ⟨r, hr, rfl⟩ := List.mem_map.1 hq
    exact ofHalfOpen_normalize r ((canon_spec s h).2.1 r hr)
  · next hc => rw [if_neg hc]

/-- What may follow a number in a sequence set. -/
def seqStop (b : UInt8) : Bool := isDigit b

/-- What may follow a sequence. -/
def seqStop' (b : UInt8) : Bool := isDigit b || b == 58

/-- What must not follow a sequence set. -/
def setStop (b : UInt8) : Bool := isDigit b || b == 58 || b == 44

omit [Quirks] in
theorem nonZero_of_wf {n : Nat} (h : isNonZeroU32 n = true) : 0 < n ∧ n < 4294967296 := by
  simp only [isNonZeroU32, Bool.and_eq_true, decide_eq_true_eq] at h
  unfold u32Max at h
  omega

omit [Quirks] in
theorem rt_seqNumber {a : SeqOrUid} {r : Bytes} (h : a.wf = true) (hr : Stops isDigit r = true) :
    seqNumber (bytes a.enc ++ r) = .ok r a := by
  cases a with
  | value n =>
    have := nonZero_of_wf h
    simp [seqNumber, SeqOrUid.enc, orElse, rt_nzNumber this.1 this.2 hr]
  | asterisk => rfl

theorem rt_sequence {q : Sequence} {r : Bytes} (h : q.wf = true)
    (hn : (if Quirks.alwaysNormalizeSequenceSets then q.normalize else q) = q) (hr : Stops seqStop' r = true) :
    alt [(fun r => Sequence.range r.1 r.2) <$> seqRange, .single <$> seqNumber] (bytes q.enc ++ r) = .ok r q := by
  have hr1 : Stops isDigit r = true := Stops.mono hr (by intro b; simp [seqStop']; tauto)
  unfold Sequence.enc
  rw [hn]
  cases q with
  | single a =>
    have hr2 : tag b!":" r = .error := by
      obtain ⟨b, bs, rfl, hb⟩ := exists_of_stops hr
      simp [seqStop'] at hb
      simp [tag, Ne.symm hb.2]
    have := rt_seqNumber (a := a) (r := r) h hr1
    simp [orElse, seqRange, this, hr2]
  | range a b =>
    simp only [Sequence.wf, Bool.and_eq_true] at h
    have h1 := rt_seqNumber (a := a) (r := 58 :: (bytes b.enc ++ r)) h.1 rfl
    have h2 := rt_seqNumber (a := b) (r := r) h.2 hr1
    simp [orElse, seqRange, h1, h2, tag]

theorem rt_sequenceSet {s : SequenceSet} {r : Bytes} (h : s.wf = true) (hr : Stops setStop r = true) :
    sequenceSet (bytes (encSet s) ++ r) = .ok r (normSet s) := by
  have hw := normSet_wf h
  have hf := normSet_fixed h
  simp only [SequenceSet.wf, Bool.and_eq_true, Bool.not_eq_true', List.isEmpty_eq_false_iff, List.all_eq_true] at hw
  have := sepList1_join (sep := tag b!",") (p := alt [(fun r => Sequence.range r.1 r.2) <$> seqRange, .single <$> seqNumber])
    (e := Sequence.enc) (g := id) (F := fun r => Stops seqStop' r = true) (s := b!",") (rest := r) hw.1
    (fun r => by simp [tag]) (by simp) (fun q hq r hr => rt_sequence (hw.2 q hq) (hf q hq) hr) (fun r => by rfl)
    (Stops.mono hr (by intro b; simp [setStop, seqStop']; tauto)) (by
      obtain ⟨b, bs, rfl, hb⟩ := exists_of_stops hr
      simp [setStop] at hb
      simp [tag, Ne.symm hb.2])
  simpa [sequenceSet, encSet] using this

instance : Canon seqNumber fun a => a.wf = true := ⟨by
  unfold seqNumber
  post
  · simp only [SeqOrUid.wf, isNonZeroU32, Bool.and_eq_true, decide_eq_true_eq]
    unfold u32Max
    omega
  · rfl⟩

instance : Canon seqRange fun r => r.1.wf = true ∧ r.2.wf = true := ⟨by
  unfold seqRange
  post
  exact ⟨by assumption, by assumption⟩⟩

instance : Canon sequenceSet fun s => SequenceSet.wf s = true := ⟨by
  unfold sequenceSet
  have : Canon (alt [(fun r => Sequence.range r.1 r.2) <$> seqRange, .single <$> seqNumber]) fun q => q.wf = true := ⟨by
    post
    · simp [Sequence.wf, hv]
    · simp [Sequence.wf, hv]⟩
  post
  simpa [SequenceSet.wf] using hv⟩

/-! ### Mailboxes -/

omit [Quirks] in
theorem eqIC_iff {a b : Bytes} : eqIC a b = true ↔ lowerAll a = lowerAll b := by simp [eqIC]

omit [Quirks] in
/-- The `unwrap` in `From<AString> for Mailbox` never panics. -/
theorem Mailbox.fromAString_eq (s : AString) : Mailbox.fromAString s = some (Mailbox.ofAString s) := by
  unfold Mailbox.fromAString Mailbox.ofAString MailboxOther.tryFrom isMailboxOther
  by_cases h : eqIC s.content b!"inbox"
  · have hu : isUtf8 s.content = true := by
      refine isUtf8_of_ascii fun b hb => ?_
      have hl : lower b ∈ lowerAll s.content := List.mem_map.2 ⟨b, hb, rfl⟩
      rw [eqIC_iff.1 h] at hl
      have key : ∀ b, lower b ∈ lowerAll b!"inbox" → b < 0x80 := forall_byte (by decide)
      exact key b hl
    simp [h, hu]
  · simp [h]

instance : Canon mailbox fun m => m.valid = true := ⟨by
  unfold mailbox
  post
  unfold Mailbox.ofAString
  split
  · rfl
  · simp_all [Mailbox.valid, isMailboxOther]⟩

theorem rt_mailbox {m : Mailbox} {r : Bytes} (h : m.valid = true) (hr : Stops isAStringChar r = true) :
    mailbox (bytes m.enc ++ r) = .ok r m := by
  cases m with
  | inbox =>
    have := rt_astring (s := .atom b!"INBOX") (r := r) rfl hr
    simp only [mailbox, Mailbox.enc, P.map_apply]
    simp only [AString.enc] at this
    rw [this]
    rfl
  | other s =>
    simp only [Mailbox.valid, Bool.and_eq_true, isMailboxOther, Bool.not_eq_true'] at h
    have := rt_astring (s := s) (r := r) h.1 hr
    simp [mailbox, Mailbox.enc, this, Mailbox.ofAString, h.2]

instance : Canon listMailbox fun m => m.valid = true := ⟨by
  unfold listMailbox
  post
  · simp only [ListMailbox.valid, isListCharString, hv.2, Bool.and_true, Bool.not_eq_true']
    cases v <;> simp_all
  · exact hv⟩

theorem rt_listMailbox {m : ListMailbox} {r : Bytes} (h : m.valid = true) (hr : Stops isListChar r = true) :
    listMailbox (bytes m.enc ++ r) = .ok r m := by
  cases m with
  | token s =>
    simp only [ListMailbox.valid, isListCharString, Bool.and_eq_true, Bool.not_eq_true', List.isEmpty_eq_false_iff] at h
    have := takeWhile1_append h.1 h.2 hr
    simp [listMailbox, ListMailbox.enc, orElse, this]
  | string s =>
    have := rt_string (s := s) h (Stops.ne_nil hr)
    obtain ⟨b, t, h1, h2⟩ := enc_string_head s
    have e : takeWhile1 isListChar (bytes s.enc ++ r) = .error := by
      rw [h1]
      rcases h2 with rfl | rfl <;> rfl
    simp [listMailbox, ListMailbox.enc, orElse, e, this]

/-! ### Flags -/

omit [Quirks] in
theorem Flag.system_valid {s : Bytes} (h : isAtom s = true) : (Flag.system s).valid = true := by
  have : Flag.system s = .extension s ∨ (Flag.system s).valid = true := by
    unfold Flag.system
    simp only
    split_ifs <;> simp [Flag.valid]
  rcases this with e | e
  · rw [e]; simp [Flag.valid, h, e]
  · exact e

instance : Canon flag fun f => f.valid = true := ⟨by
  unfold flag
  post
  · exact Flag.system_valid hv
  · exact hv⟩

instance : Canon flagList fun l => ∀ f ∈ l, f.valid = true := ⟨by
  unfold flagList
  post
  assumption⟩

omit [Quirks] in
theorem atom_ne_backslash {s : Bytes} (h : isAtom s = true) : Stops (· == 92) s = true := by
  cases s with
  | nil => simp [isAtom] at h
  | cons b s =>
    simp only [isAtom, List.all_cons, Bool.and_eq_true] at h
    have : ∀ b, isAtomChar b = true → (!(b == 92)) = true := forall_byte (by decide)
    exact this b h.2.1

omit [Quirks] in
theorem rt_flag {f : Flag} {r : Bytes} (h : f.valid = true) (hr : Stops isAtomChar r = true) :
    flag (bytes f.enc ++ r) = .ok r f := by
  have sys : ∀ s, isAtom s = true → flag (92 :: (s ++ r)) = .ok r (Flag.system s) := by
    intro s hs
    simp [flag, orElse, char, rt_atom hs hr]
  cases f with
  | extension s =>
    simp only [Flag.valid, Bool.and_eq_true, beq_iff_eq] at h
    simpa [Flag.enc, h.2] using sys s h.1
  | keyword s =>
    have hb := atom_ne_backslash h
    obtain ⟨b, bs, rfl, hb⟩ := exists_of_stops hb
    simp at hb
    have := rt_atom h hr
    simp only [List.cons_append] at this
    simp [flag, Flag.enc, orElse, char, hb, this]
  | answered => exact sys b!"Answered" rfl
  | deleted => exact sys b!"Deleted" rfl
  | draft => exact sys b!"Draft" rfl
  | flagged => exact sys b!"Flagged" rfl
  | seen => exact sys b!"Seen" rfl

omit [Quirks] in
theorem rt_flagList {l : List Flag} {r : Bytes} (h : ∀ f ∈ l, f.valid = true) :
    flagList (40 :: (bytes (join b!" " (l.map Flag.enc)) ++ 41 :: r)) = .ok r l := by
  have := sepList0_sp (p := flag) (e := Flag.enc) (g := id) (F := fun r => Stops isAtomChar r = true) (rest := 41 :: r) (l := l)
    (fun f hf r hr => rt_flag (h f hf) hr) (fun r => rfl) rfl rfl rfl
  simp [flagList, tag, this]

omit [Quirks] in
theorem eqIC_cons {b : UInt8} {s t : Bytes} : eqIC (b :: s) (b :: t) = eqIC s t := by
  simp [eqIC, lowerAll]

omit [Quirks] in
/-- `flag_fetch` as an alternative of parsers. -/
theorem flagFetch_eq : flagFetch =
    alt [value .recent (mapRes (do char 92; atom) fun s => if eqIC s b!"recent" then some () else none), .flag <$> flag] := by
  funext x
  rw [show ∀ p q : P FlagFetch, alt [p, q] = orElse p q from fun p q => congrArg (orElse p) (alt_singleton q)]
  simp only [flagFetch, orElse, recognize, value, P.bind_apply, mapRes]
  cases x with
  | nil => rfl
  | cons b bs =>
    simp only [char]
    by_cases hb : b = 92
    · subst hb
      simp only [if_true, Res.andThen_ok]
      cases h : atom bs with
      | ok r v =>
        have : bs = v ++ r := (exists_of_takeWhile1 h).1
        subst this
        have e : List.take ((92 :: (v ++ r)).length - r.length) (92 :: (v ++ r)) = 92 :: v := by
          have : (92 :: (v ++ r)).length - r.length = v.length + 1 := by simp; omega
          rw [this]
          simp
        simp only [Res.andThen_ok, e]
        rw [show b!"\\recent" = 92 :: b!"recent" from rfl, eqIC_cons]
        split <;> rfl
      | incomplete => simp [flag, orElse, char, h]
      | error => rfl
      | failure k => simp [flag, orElse, char, h]
    · simp only [hb, if_false]
      rfl

instance : Nice flagFetch := by rw [flagFetch_eq]; infer_instance

instance : Canon flagFetch fun f => f.valid = true := ⟨by
  intro x r v h
  rw [flagFetch_eq] at h
  simp only [alt_cons, orElse, value, P.bind_apply, P.map_apply] at h
  cases e : mapRes (do char 92; atom) (fun s => if eqIC s b!"recent" then some () else none) x with
  | ok i w =>
    rw [e] at h
    simp at h
    rw [← h.2]; rfl
  | incomplete => rw [e] at h; simp at h
  | failure k => rw [e] at h; simp at h
  | error =>
    rw [e] at h
    simp only [Res.andThen_error] at h
    cases e2 : flag x with
    | ok i w =>
      rw [e2] at h
      simp at h
      have hw := Canon.post (p := flag) _ _ _ e2
      rw [← h.2]
      cases w with
      | extension s =>
        simp only [FlagFetch.valid, hw, Bool.true_and, Bool.not_eq_true']
        unfold flag at e2
        simp only [alt_cons, orElse, P.map_apply] at e2
        cases e3 : (do char 92; atom : P Bytes) x with
        | ok j u =>
          rw [e3] at e2
          simp at e2
          simp only [mapRes, e3] at e
          split at e
          · simp at e
          · next hn =>
            split at hn
            · simp at hn
            · next hn' =>
              have hu : Flag.system u = .extension u := by
                have hs : Flag.system u = .extension s := e2.2
                have : ∀ s, Flag.system u = .extension s → u = s := by
                  intro s
                  unfold Flag.system
                  simp only
                  split_ifs <;> simp
                rw [hs, this s hs]
              rw [hu] at e2
              simp at e2
              rw [← e2.2]
              simpa using hn'
        | incomplete => rw [e3] at e2; simp at e2
        | failure k => rw [e3] at e2; simp at e2
        | error =>
          rw [e3] at e2
          simp only [Res.andThen_error] at e2
          cases e4 : atom x with
          | ok j u => rw [e4] at e2; simp at e2
          | error => rw [e4] at e2; simp at e2
          | incomplete => rw [e4] at e2; simp at e2
          | failure k => rw [e4] at e2; simp at e2
      | _ => exact hw
    | incomplete => rw [e2] at h; simp at h
    | error => rw [e2] at h; simp at h
    | failure k => rw [e2] at h; simp at h⟩

omit [Quirks] in
theorem rt_flagFetch {f : FlagFetch} {r : Bytes} (h : f.valid = true) (hr : Stops isAtomChar r = true) :
    flagFetch (bytes f.enc ++ r) = .ok r f := by
  rw [flagFetch_eq]
  cases f with
  | recent =>
    have := rt_atom (s := b!"Recent") rfl hr
    simp [FlagFetch.enc, orElse, value, mapRes, char] at *
    rw [this]
    rfl
  | flag f =>
    have hv : f.valid = true := by
      cases f <;> simp_all [FlagFetch.valid]
    have hf := rt_flag hv hr
    have key : mapRes (do char 92; atom) (fun s => if eqIC s b!"recent" then some () else none) (bytes f.enc ++ r) = .error := by
      have sys : ∀ s, isAtom s = true → eqIC s b!"recent" = false →
          mapRes (do char 92; atom) (fun s => if eqIC s b!"recent" then some () else none) (92 :: (s ++ r)) = .error := by
        intro s hs hn
        simp [mapRes, char, rt_atom hs hr, hn]
      cases f with
      | extension s =>
        simp only [FlagFetch.valid, Bool.and_eq_true, Bool.not_eq_true', Flag.valid] at h
        simpa [Flag.enc] using sys s h.1.1 h.2
      | keyword s =>
        obtain ⟨b, bs, rfl, hb⟩ := exists_of_stops (atom_ne_backslash hv)
        simp at hb
        simp [Flag.enc, mapRes, char, hb]
      | answered => exact sys b!"Answered" rfl rfl
      | deleted => exact sys b!"Deleted" rfl rfl
      | draft => exact sys b!"Draft" rfl rfl
      | flagged => exact sys b!"Flagged" rfl rfl
      | seen => exact sys b!"Seen" rfl rfl
    simp [FlagFetch.enc, orElse, value, key, hf]

instance : Canon flagPerm fun f => f.valid = true := ⟨by
  unfold flagPerm
  post
  · rfl
  · exact hv⟩

omit [Quirks] in
theorem rt_flagPerm {f : FlagPerm} {r : Bytes} (h : f.valid = true) (hr : Stops isAtomChar r = true) :
    flagPerm (bytes f.enc ++ r) = .ok r f := by
  cases f with
  | asterisk => rfl
  | flag f =>
    have hf := rt_flag (f := f) h hr
    have key : tag b!"\\*" (bytes f.enc ++ r) = .error := by
      have hne : ∀ s, isAtom s = true → tag b!"\\*" (92 :: (s ++ r)) = .error := by
        intro s hs
        cases s with
        | nil => simp [isAtom] at hs
        | cons b s =>
          simp only [isAtom, List.all_cons, Bool.and_eq_true] at hs
          have : ∀ b, isAtomChar b = true → ¬ 42 = b := forall_byte (by decide)
          simp [tag, this b hs.2.1]
      cases f with
      | extension s =>
        simp only [FlagPerm.valid, Flag.valid, Bool.and_eq_true] at h
        simpa [Flag.enc] using hne s h.1
      | keyword s =>
        obtain ⟨b, bs, rfl, hb⟩ := exists_of_stops (atom_ne_backslash h)
        simp at hb
        simp [Flag.enc, tag, Ne.symm hb]
      | _ => rfl
    simp [flagPerm, FlagPerm.enc, orElse, value, key, hf]

omit [Quirks] in
theorem FlagNameAttribute.ofAtom_valid {s : Bytes} (h : isAtom s = true) : (FlagNameAttribute.ofAtom s).valid = true := by
  have : FlagNameAttribute.ofAtom s = .extension s ∨ (FlagNameAttribute.ofAtom s).valid = true := by
    unfold FlagNameAttribute.ofAtom
    simp only
    split_ifs <;> simp [FlagNameAttribute.valid]
  rcases this with e | e
  · rw [e]; simp [FlagNameAttribute.valid, h, e]
  · exact e

instance : Canon mbxListFlags fun l => l ≠ [] ∧ ∀ f ∈ l, f.valid = true := ⟨by
  unfold mbxListFlags
  have : Canon (FlagNameAttribute.ofAtom <$> (do char 92; atom)) fun f => f.valid = true := ⟨by
    post
    exact FlagNameAttribute.ofAtom_valid hv⟩
  post
  exact hv⟩

omit [Quirks] in
theorem rt_mbxListFlags {l : List FlagNameAttribute} {r : Bytes} (hl : l ≠ []) (h : ∀ f ∈ l, f.valid = true) :
    mbxListFlags (bytes (join b!" " (l.map FlagNameAttribute.enc)) ++ 41 :: r) = .ok (41 :: r) l := by
  have := sepList1_sp (p := FlagNameAttribute.ofAtom <$> (do char 92; atom)) (e := FlagNameAttribute.enc) (g := id)
    (F := fun r => Stops isAtomChar r = true) (rest := 41 :: r) (l := l) hl
    (fun f hf r hr => by
      have sys : ∀ s, isAtom s = true → (FlagNameAttribute.ofAtom <$> (do char 92; atom) : P _) (92 :: (s ++ r)) =
          .ok r (FlagNameAttribute.ofAtom s) := by
        intro s hs
        simp [char, rt_atom hs hr]
      have hv := h f hf
      cases f with
      | extension s =>
        simp only [FlagNameAttribute.valid, Bool.and_eq_true, beq_iff_eq] at hv
        have := sys s hv.1
        rw [hv.2] at this
        simpa [FlagNameAttribute.enc] using this
      | noinferiors => exact sys b!"Noinferiors" rfl
      | noselect => exact sys b!"Noselect" rfl
      | marked => exact sys b!"Marked" rfl
      | unmarked => exact sys b!"Unmarked" rfl) (fun r => rfl) rfl rfl
  simpa [mbxListFlags] using this

/-! ### Dates -/

omit [Quirks] in
theorem digitVal_lt {b : UInt8} (h : isDigit b = true) : digitVal b < 10 := by
  have : ∀ b, isDigit b = true → digitVal b < 10 := forall_byte (by decide)
  exact this b h

omit [Quirks] in
theorem decVal_lt {l : Bytes} (h : l.all isDigit = true) : decVal l < 10 ^ l.length := by
  induction l using List.reverseRecOn with
  | nil => simp [decVal]
  | append_singleton l b ih =>
    simp only [List.all_append, List.all_cons, List.all_nil, Bool.and_true, Bool.and_eq_true] at h
    rw [decVal_append_one]
    have h1 := ih h.1
    have h2 := digitVal_lt h.2
    simp only [List.length_append, List.length_cons, List.length_nil, Nat.zero_add, Nat.pow_succ]
    omega

instance : Canon digit12 fun n => n < 100 := ⟨by
  unfold digit12
  post
  have := decVal_lt hv.2
  rcases hv.1 with e | e <;> rw [e] at this <;> omega⟩

instance : Canon digit2 fun n => n < 100 := ⟨by
  unfold digit2
  post
  have := decVal_lt hv.2
  rw [hv.1] at this
  exact this⟩

instance : Canon digit4 fun n => n < 10000 := ⟨by
  unfold digit4
  post
  have := decVal_lt hv.2
  rw [hv.1] at this
  exact this⟩

omit [Quirks] in
theorem rt_digit2 {n : Nat} {r : Bytes} (h : n < 100) : digit2 (show2 n ++ r) = .ok r n := by
  have h1 := isDigit_ofNat (n / 10) (by omega)
  have h2 := isDigit_ofNat (n % 10) (by omega)
  simp only [digit2, show2, P.map_apply, List.cons_append, List.nil_append, takeExactly, h1, h2, if_true, Res.andThen_ok,
    decVal, List.foldl_cons, List.foldl_nil, digitVal_ofNat (n / 10) (by omega), digitVal_ofNat (n % 10) (by omega)]
  congr 1
  omega

omit [Quirks] in
theorem rt_digit12 {n : Nat} {r : Bytes} (h : n < 100) : digit12 (show2 n ++ r) = .ok r n := by
  have h1 := isDigit_ofNat (n / 10) (by omega)
  have h2 := isDigit_ofNat (n % 10) (by omega)
  simp only [digit12, show2, P.map_apply, List.cons_append, List.nil_append, take1or2, h1, h2, if_true, Res.andThen_ok,
    decVal, List.foldl_cons, List.foldl_nil, digitVal_ofNat (n / 10) (by omega), digitVal_ofNat (n % 10) (by omega)]
  congr 1
  omega

omit [Quirks] in
theorem rt_digit4 {n : Nat} {r : Bytes} (h : n < 10000) : digit4 (show4 n ++ r) = .ok r n := by
  have h1 := isDigit_ofNat (n / 1000) (by omega)
  have h2 := isDigit_ofNat (n / 100 % 10) (by omega)
  have h3 := isDigit_ofNat (n / 10 % 10) (by omega)
  have h4 := isDigit_ofNat (n % 10) (by omega)
  simp only [digit4, show4, P.map_apply, List.cons_append, List.nil_append, takeExactly, h1, h2, h3, h4, if_true, Res.andThen_ok,
    decVal, List.foldl_cons, List.foldl_nil, digitVal_ofNat (n / 1000) (by omega), digitVal_ofNat (n / 100 % 10) (by omega),
    digitVal_ofNat (n / 10 % 10) (by omega), digitVal_ofNat (n % 10) (by omega)]
  congr 1
  omega

omit [Quirks] in
theorem rt_dateMonth {m : Nat} {r : Bytes} (h1 : 1 ≤ m) (h2 : m ≤ 12) : dateMonth (monthName m ++ r) = .ok r m := by
  have : m = 1 ∨ m = 2 ∨ m = 3 ∨ m = 4 ∨ m = 5 ∨ m = 6 ∨ m = 7 ∨ m = 8 ∨ m = 9 ∨ m = 10 ∨ m = 11 ∨ m = 12 := by omega
  rcases this with rfl | rfl | rfl | rfl | rfl | rfl | rfl | rfl | rfl | rfl | rfl | rfl <;> rfl

omit [Quirks] in
theorem daysIn_le (y m : Nat) : daysIn y m ≤ 31 := by
  unfold daysIn
  split_ifs <;> omega

omit [Quirks] in
theorem NaiveDate.valid_iff {d : NaiveDate} : d.valid = true ↔
    d.year ≤ 9999 ∧ 1 ≤ d.month ∧ d.month ≤ 12 ∧ 1 ≤ d.day ∧ d.day ≤ daysIn d.year d.month := by
  simp [NaiveDate.valid, and_assoc]

omit [Quirks] in
theorem fromYmdOpt_eq_some {y m d : Nat} {r : NaiveDate} (hy : y < 10000) : fromYmdOpt y m d = some r ↔
    r = ⟨y, m, d⟩ ∧ r.valid = true := by
  unfold fromYmdOpt
  split
  · next h =>
    rw [Option.some.injEq, eq_comm]
    refine ⟨fun e => ⟨e, ?_⟩, fun e => e.1⟩
    subst e
    rw [NaiveDate.valid_iff]
    exact ⟨by simp only; omega, h⟩
  · next h =>
    simp only [reduceCtorEq, false_iff, not_and]
    rintro rfl
    rw [NaiveDate.valid_iff]
    rintro ⟨_, h'⟩
    exact h h'

instance : Canon dateText fun o => ∀ d, o = some d → d.valid = true := ⟨by
  unfold dateText
  post
  intro d hd
  exact ((fromYmdOpt_eq_some (by assumption)).1 hd).2⟩

instance : Canon date fun o => ∀ d, o = some d → d.valid = true := ⟨by
  unfold date
  post
  · exact hv
  · assumption⟩

omit [Quirks] in
theorem rt_dateText {d : NaiveDate} {r : Bytes} (h : d.valid = true) : dateText (showDate d ++ r) = .ok r (some d) := by
  have hv := NaiveDate.valid_iff.1 h
  have := daysIn_le d.year d.month
  simp only [dateText, showDate, List.append_assoc, P.bind_apply, rt_digit12 (show d.day < 100 by omega), Res.andThen_ok,
    tag_append, rt_dateMonth hv.2.1 hv.2.2.1, rt_digit4 (show d.year < 10000 by omega)]
  rw [(fromYmdOpt_eq_some (by omega)).2 ⟨rfl, h⟩]
  rfl

omit [Quirks] in
theorem rt_date {d : NaiveDate} {r : Bytes} (h : d.valid = true) : date (bytes d.enc ++ r) = .ok r (some d) := by
  have := rt_dateText (r := 34 :: r) h
  have e : dateText (34 :: (showDate d ++ 34 :: r)) = .error := by
    simp [dateText, digit12, show2, showDate, take1or2]
    rfl
  simp [date, NaiveDate.enc, orElse, e, dquote, char, this]

instance : Canon time fun o => ∀ t, o = some t → t.1 ≤ 23 ∧ t.2.1 ≤ 59 ∧ t.2.2 ≤ 59 := ⟨by
  unfold time
  post
  intro t ht
  split at ht <;> simp at ht
  subst ht
  simp only
  omega⟩

instance : Canon zone fun o => ∀ z, o = some z → z % 60 = 0 ∧ z.natAbs < 86400 := ⟨by
  unfold zone
  post
  intro z hz
  split at hz <;> simp at hz
  subst hz
  split <;> omega⟩

instance : Canon dateDayFixed fun n => n < 100 := ⟨by
  unfold dateDayFixed
  post
  · have := digitVal_lt hv; omega
  · exact hv⟩

instance {d : Option NaiveDate} {t : Option (Nat × Nat × Nat)} {z : Option Int} : Canon (mkDateTime d t z) fun r =>
    ∃ d', d = some d' ∧ ∃ t', t = some t' ∧ ∃ z', z = some z' ∧ r = ⟨d', t'.1, t'.2.1, t'.2.2, z'⟩ := ⟨by
  intro x r v e
  unfold mkDateTime at e
  split at e <;> simp at e
  next d t z =>
  exact ⟨d, rfl, t, rfl, z, rfl, e.2.symm⟩⟩

instance : Canon dateTime fun t => t.valid = true := ⟨by
  unfold dateTime
  post
  obtain ⟨d, h1, t, h2, z, h3, rfl⟩ := hv
  have h1 := ((fromYmdOpt_eq_some (by assumption)).1 h1).2
  simp_all [DateTime.valid]⟩

omit [Quirks] in
theorem rt_zone {z : Int} {r : Bytes} (h1 : z % 60 = 0) (h2 : z.natAbs < 86400) : zone (showZone z ++ r) = .ok r (some z) := by
  unfold showZone
  by_cases hz : z < 0
  · simp only [hz, if_true, zone, List.cons_append, List.nil_append, P.bind_apply, List.append_assoc, alt_cons, orElse, value, char]
    simp only [show ¬ (45 : UInt8) = 43 by decide, if_false, Res.andThen_error, if_true, Res.andThen_ok, P.pure_apply,
      rt_digit2 (show z.natAbs / 3600 < 100 by omega), rt_digit2 (show z.natAbs / 60 % 60 < 100 by omega), P.bind_apply]
    rw [if_pos (by omega)]
    simp
    omega
  · simp only [hz, if_false, zone, List.cons_append, List.nil_append, P.bind_apply, List.append_assoc, alt_cons, orElse, value, char]
    simp only [if_true, Res.andThen_ok, P.pure_apply,
      rt_digit2 (show z.natAbs / 3600 < 100 by omega), rt_digit2 (show z.natAbs / 60 % 60 < 100 by omega), P.bind_apply]
    rw [if_pos (by omega)]
    simp
    omega

omit [Quirks] in
theorem DateTime.valid_iff {t : DateTime} : t.valid = true ↔ t.date.valid = true ∧ t.hour ≤ 23 ∧ t.minute ≤ 59 ∧ t.second ≤ 59 ∧
    t.offset % 60 = 0 ∧ t.offset.natAbs < 86400 := by
  simp [DateTime.valid, and_assoc]

omit [Quirks] in
theorem rt_dateDayFixed {n : Nat} {r : Bytes} (h : n < 100) : dateDayFixed (show2 n ++ r) = .ok r n := by
  have h1 := isDigit_ofNat (n / 10) (by omega)
  have h3 : ¬ UInt8.ofNat (48 + n / 10) = 32 := by intro e; rw [e] at h1; simp [isDigit] at h1
  have := rt_digit2 (r := r) h
  simp only [dateDayFixed, alt_cons, orElse, P.map_apply, P.bind_apply, this]
  simp only [show2, List.cons_append, sp, char, h3, if_false, Res.andThen_error]

omit [Quirks] in
theorem rt_time {a b c : Nat} {r : Bytes} (ha : a ≤ 23) (hb : b ≤ 59) (hc : c ≤ 59) :
    time (show2 a ++ 58 :: (show2 b ++ 58 :: (show2 c ++ r))) = .ok r (some (a, b, c)) := by
  simp only [time, P.bind_apply, rt_digit2 (show a < 100 by omega), rt_digit2 (show b < 100 by omega), rt_digit2 (show c < 100 by omega),
    Res.andThen_ok, tag, if_true]
  rw [if_pos (by omega)]
  rfl

omit [Quirks] in
theorem rt_dateTime {t : DateTime} {r : Bytes} (h : t.valid = true) : dateTime (bytes t.enc ++ r) = .ok r t := by
  obtain ⟨hd, h1, h2, h3, h4, h5⟩ := DateTime.valid_iff.1 h
  have hv := NaiveDate.valid_iff.1 hd
  have := daysIn_le t.date.year t.date.month
  have ht := fun r => rt_time (r := r) h1 h2 h3
  simp only [dateTime, DateTime.enc, showDate, bytes_wr, bytes_nil, List.append_nil, List.append_assoc, P.bind_apply, List.cons_append,
    List.nil_append, dquote, sp, char, tag, if_true, Res.andThen_ok, rt_dateDayFixed (show t.date.day < 100 by omega),
    rt_dateMonth hv.2.1 hv.2.2.1, rt_digit4 (show t.date.year < 10000 by omega), ht, rt_zone h4 h5]
  rw [(fromYmdOpt_eq_some (y := t.date.year) (m := t.date.month) (d := t.date.day) (by omega)).2 ⟨rfl, hd⟩]
  rfl

/-! ### Authentication -/

omit [Quirks] in
theorem AuthMechanism.ofAtom_valid {s : Bytes} (h : isAtom s = true) : (AuthMechanism.ofAtom s).valid = true := by
  have : AuthMechanism.ofAtom s = .other s ∨ (AuthMechanism.ofAtom s).valid = true := by
    unfold AuthMechanism.ofAtom
    simp only
    split_ifs <;> simp [AuthMechanism.valid]
  rcases this with e | e
  · rw [e]; simp [AuthMechanism.valid, h, e]
  · exact e

instance : Canon authType fun m => m.valid = true := ⟨by
  unfold authType
  post
  exact AuthMechanism.ofAtom_valid hv⟩

omit [Quirks] in
theorem rt_authType {m : AuthMechanism} {r : Bytes} (h : m.valid = true) (hr : Stops isAtomChar r = true) :
    authType (bytes m.enc ++ r) = .ok r m := by
  have key : ∀ s, isAtom s = true → authType (s ++ r) = .ok r (AuthMechanism.ofAtom s) := by
    intro s hs
    simp [authType, rt_atom hs hr]
  have : isAtom m.name = true ∧ AuthMechanism.ofAtom m.name = m := by
    cases m with
    | other s => simpa [AuthMechanism.valid, AuthMechanism.name] using h
    | scramSha3_512 => simp [AuthMechanism.valid] at h
    | scramSha3_512Plus => simp [AuthMechanism.valid] at h
    | _ => exact ⟨rfl, rfl⟩
  have := this.2 ▸ key m.name this.1
  simpa [AuthMechanism.enc] using this

omit [Quirks] in
theorem b64_stops {s r : Bytes} : Stops (fun b => isBase64Char b || b == 61) (13 :: r) = true := rfl

theorem rt_authenticateData {d : AuthenticateData} {r : Bytes} : authenticateData (bytes d.enc ++ r) = .ok r d := by
  cases d with
  | continue_ d =>
    have := rt_base64 (d := d) (r := 13 :: 10 :: r) rfl
    simp [authenticateData, AuthenticateData.enc, orElse, this, rt_crlf]
  | cancel =>
    have e : base64 (42 :: 13 :: 10 :: r) = .ok (42 :: 13 :: 10 :: r) [] := by
      refine mapRes_ok (v := []) ?_ rfl
      simp [recognize, takeWhile, isBase64Char, isDigit, opt, orElse, tag]
    have e2 : crlf (42 :: 13 :: 10 :: r) = .error := by
      unfold crlf
      split <;> simp [opt, char, tag]
    simp [authenticateData, AuthenticateData.enc, orElse, value, e, e2, tag, rt_crlf]

theorem rt_idleDone {r : Bytes} : idleDone (bytes encIdleDone ++ r) = .ok r () := by
  simp [idleDone, encIdleDone, value, tagNC, rt_crlf]

/-! ### Status items -/

theorem rt_statusAtt {a : StatusDataItemName} {r : Bytes} (h : a.valid = true) (hr : Stops isAtomChar r = true) :
    statusAtt (bytes a.enc ++ r) = .ok r a := by
  cases a with
  | deleted =>
    have := tagNC_longer (t := b!"DELETED") (s := b!"STORAGE") (c := 45) rfl hr
    simp only [List.cons_append, List.nil_append] at this
    simp [statusAtt, orElse, StatusDataItemName.enc, value, this]
    rfl
  | highestModSeq =>
    have h : Quirks.extCondstoreQresync = true := h
    simp only [statusAtt, gate_on h]
    rfl
  | _ => rfl

end Imap
