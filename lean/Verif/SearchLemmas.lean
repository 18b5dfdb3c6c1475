import Verif.Search
import Verif.FetchNameLemmas
/-
Facts about search keys.
-/
set_option maxRecDepth 10000

namespace Imap

variable [Quirks]

instance : Nice attrFlag := by unfold attrFlag; infer_instance
instance : Nice entryTypeReq := by unfold entryTypeReq; infer_instance
instance : Nice entryName := by unfold entryName; infer_instance
instance : Nice searchModseqExt := by unfold searchModseqExt; infer_instance
instance : Nice modSequenceValue := by unfold modSequenceValue; infer_instance
instance : Nice modSequenceValzer := by unfold modSequenceValzer; infer_instance
instance : Nice searchModsequence := by unfold searchModsequence; infer_instance
instance : Nice dateSome := by unfold dateSome; infer_instance

set_option synthInstance.maxSize 2000 in
set_option synthInstance.maxHeartbeats 400000 in
theorem searchKey_nice (n : Nat) : Nice (searchKey n) := by
  induction n with
  | zero => unfold searchKey; infer_instance
  | succ n ih => unfold searchKey; infer_instance

instance (n : Nat) : Nice (searchKey n) := searchKey_nice n
instance : Nice searchCriteria := by unfold searchCriteria; infer_instance

/-! ### Postconditions -/

omit [Quirks] in
theorem AttributeFlag.system_valid {a : Bytes} (h : isAtom a = true) : (AttributeFlag.system a).valid = true := by
  have : AttributeFlag.system a = .extension a ∨ ∀ b, AttributeFlag.system a ≠ .extension b := by
    unfold AttributeFlag.system
    simp only
    split_ifs <;> simp
  rcases this with h1 | h1
  · rw [h1]
    simp [AttributeFlag.valid, h, h1]
  · cases h2 : AttributeFlag.system a with
    | extension b => exact absurd h2 (h1 b)
    | keyword b =>
      exfalso
      revert h2
      unfold AttributeFlag.system
      simp only
      split_ifs <;> simp
    | _ => rfl

omit [Quirks] in
theorem isAtom_iff {a : Bytes} : isAtom a = true ↔ a ≠ [] ∧ a.all isAtomChar = true := by
  simp [isAtom]

instance : Canon attrFlag fun v => v.valid = true := ⟨by
  unfold attrFlag
  post
  · exact AttributeFlag.system_valid hv
  · exact hv⟩

instance : Canon entryName fun v => v.valid = true := ⟨by
  unfold entryName
  post
  assumption⟩

instance : Canon searchModseqExt fun v => v.1.valid = true := ⟨by
  unfold searchModseqExt
  post
  assumption⟩

instance : Canon modSequenceValue fun n => 0 < n ∧ n < 18446744073709551616 := ⟨by
  unfold modSequenceValue
  post
  split at hw <;> simp at hw
  subst hw
  exact ⟨by omega, hv⟩⟩

instance : Canon modSequenceValzer fun n => n < 18446744073709551616 := ⟨by
  unfold modSequenceValzer
  post
  exact hv⟩

instance : Canon searchModsequence fun v => isEntryOpt v.1 = true ∧ v.2 < 18446744073709551616 := ⟨by
  unfold searchModsequence
  post
  next o ho _ _ =>
  refine ⟨?_, hv⟩
  cases o with
  | none => rfl
  | some e => exact ho e rfl⟩

instance : Canon dateSome fun v => v.valid = true := ⟨by
  unfold dateSome
  post
  subst hw
  exact hv w rfl⟩

theorem SearchKey.valid_go {ks : List SearchKey} : SearchKey.valid.go ks = true ↔ ∀ k ∈ ks, k.valid = true := by
  induction ks with
  | nil => simp [SearchKey.valid.go]
  | cons k ks ih => simp [SearchKey.valid.go, ih]

omit [Quirks] in
theorem SearchKey.depth_go {ks : List SearchKey} {n : Nat} : SearchKey.depth.go ks ≤ n ↔ ∀ k ∈ ks, k.depth ≤ n := by
  induction ks with
  | nil => simp [SearchKey.depth.go]
  | cons k ks ih =>
    simp only [SearchKey.depth.go, List.mem_cons, forall_eq_or_imp, ← ih]
    omega

theorem searchKey_post (n : Nat) : Post (searchKey n) fun k => k.valid = true ∧ k.depth ≤ n := by
  induction n with
  | zero =>
    unfold searchKey
    post
  | succ n ih =>
    have : Canon (searchKey n) _ := ⟨ih⟩
    unfold searchKey
    post
    all_goals simp only [SearchKey.valid, SearchKey.depth, Bool.and_eq_true, decide_eq_true_eq]
    all_goals first
      | exact ⟨by assumption, by omega⟩
      | exact ⟨⟨by assumption, by assumption⟩, by omega⟩
      | exact ⟨trivial, by omega⟩
      | exact ⟨⟨⟨by assumption, hv.1⟩, by simpa using hv.2⟩, by omega⟩
      | skip
    · exact ⟨hv.1, by omega⟩
    · next h1 _ _ => exact ⟨⟨h1.1, hv.1⟩, by omega⟩
    · next h =>
      refine ⟨⟨by simpa using h.1, SearchKey.valid_go.2 fun k hk => (h.2 k hk).1⟩, ?_⟩
      have := SearchKey.depth_go.2 fun k hk => (h.2 k hk).2
      omega

instance (n : Nat) : Canon (searchKey n) fun k => k.valid = true ∧ k.depth ≤ n := ⟨searchKey_post n⟩

instance : Canon searchCriteria fun v => v.1.valid = true ∧ v.2 ≠ [] ∧ ∀ k ∈ v.2, k.valid = true ∧ k.depth ≤ 9 := ⟨by
  unfold searchCriteria
  post
  exact ⟨by assumption, hv.1, hv.2⟩⟩

/-! ### Round trips -/

omit [Quirks] in
theorem rt_attrFlag {f : AttributeFlag} {r : Bytes} (h : f.valid = true) : attrFlag (f.enc ++ 34 :: r) = .ok (34 :: r) f := by
  cases f with
  | extension a =>
    simp only [AttributeFlag.valid, Bool.and_eq_true, decide_eq_true_eq] at h
    have := rt_atom (r := 34 :: r) h.1 rfl
    simp [attrFlag, AttributeFlag.enc, orElse, tag, this, h.2]
  | keyword a =>
    have := rt_atom (r := 34 :: r) h rfl
    obtain ⟨b, bs, rfl, hb⟩ : ∃ b bs, a = b :: bs ∧ isAtomChar b = true := by
      simp only [AttributeFlag.valid, isAtom_iff] at h
      cases a with
      | nil => exact absurd rfl h.1
      | cons b bs => simp at h; exact ⟨b, bs, rfl, h.1⟩
    have hb' : ¬ 92 = b := by rintro rfl; exact absurd hb (by decide)
    simp only [List.cons_append] at this
    simp [attrFlag, AttributeFlag.enc, orElse, tag, this, hb']
  | _ => rfl

omit [Quirks] in
theorem rt_entryTypeReq {t : EntryTypeReq} {r : Bytes} : entryTypeReq (t.enc ++ r) = .ok r t := by
  cases t <;> rfl

omit [Quirks] in
theorem rt_modSequenceValue {n : Nat} {r : Bytes} (h0 : 0 < n) (h : n < 18446744073709551616) (hr : Stops isDigit r = true) :
    modSequenceValue (showNat n ++ r) = .ok r n :=
  mapRes_ok (rt_number64 h hr) (by simp; omega)

omit [Quirks] in
theorem rt_searchModsequence {e : Option (AttributeFlag × EntryTypeReq)} {n : Nat} {r : Bytes} (h : isEntryOpt e = true)
    (hn : n < 18446744073709551616) (hr : Stops isDigit r = true) :
    searchModsequence (bytes (encModSequence e n) ++ r) = .ok r (e, n) := by
  have e1 := rt_number64 hn hr
  cases e with
  | none =>
    obtain ⟨b, bs, e2, hb⟩ := showNat_head n
    have hb' : ¬ lower 34 = lower b := by
      have key : ∀ b, isDigit b = true → ¬ lower 34 = lower b := forall_byte (by decide)
      exact key b hb
    rw [e2] at e1
    simp only [List.cons_append] at e1
    simp [encModSequence, searchModsequence, tagNC, opt, searchModseqExt, entryName, sp, char, modSequenceValzer, e1, e2, hb']
  | some x =>
    obtain ⟨f, t⟩ := x
    have e2 := rt_attrFlag (f := f) (r := 32 :: (t.enc ++ 32 :: (showNat n ++ r))) h
    have e3 := rt_entryTypeReq (t := t) (r := 32 :: (showNat n ++ r))
    simp [encModSequence, searchModsequence, tagNC, opt, searchModseqExt, entryName, sp, char, modSequenceValzer, e1, e2, e3]

omit [Quirks] in
theorem rt_dateSome {d : NaiveDate} {r : Bytes} (h : d.valid = true) : dateSome (bytes d.enc ++ r) = .ok r d :=
  mapRes_ok (rt_date h) rfl

omit [Quirks] in
theorem stops_atom {r : Bytes} (hr : Stops isAStringChar r = true) : Stops isAtomChar r = true :=
  Stops.mono hr (by intro b; simp [isAStringChar]; tauto)

omit [Quirks] in
theorem stops_digit {r : Bytes} (hr : Stops isAStringChar r = true) : Stops isDigit r = true :=
  Stops.mono hr (forall_byte (by decide))

omit [Quirks] in
theorem stops_set {r : Bytes} (hr : Stops isAStringChar r = true) : Stops setStop r = true :=
  Stops.mono hr (forall_byte (by decide))

omit [Quirks] in
/-- A keyword starting with a letter does not match an input starting with another character. -/
theorem tagNC_other {b c : UInt8} {t r : Bytes} (h : lower c ≠ lower b) : tagNC (c :: t) (b :: r) = .error := by
  simp [tagNC, h]

theorem SearchKey.enc_go (ks : List SearchKey) : SearchKey.enc.go ks = ks.map SearchKey.enc := by
  induction ks with
  | nil => rfl
  | cons k ks ih => simp [SearchKey.enc.go, ih]

theorem SearchKey.norm_go (ks : List SearchKey) : SearchKey.norm.go ks = ks.map SearchKey.norm := by
  induction ks with
  | nil => rfl
  | cons k ks ih => simp [SearchKey.norm.go, ih]

/-- A sequence set starts with a digit or an asterisk. -/
theorem encSet_head {s : SequenceSet} (h : s.wf = true) :
    ∃ b bs, bytes (encSet s) = b :: bs ∧ (isDigit b = true ∨ b = 42) := by
  have h' := normSet_wf h
  unfold encSet
  cases hs : normSet s with
  | nil => rw [hs] at h'; simp [SequenceSet.wf] at h'
  | cons q qs =>
    have key : ∀ a : SeqOrUid, ∃ b bs, bytes a.enc = b :: bs ∧ (isDigit b = true ∨ b = 42) := by
      intro a
      cases a with
      | asterisk => exact ⟨42, [], rfl, .inr rfl⟩
      | value n =>
        obtain ⟨b, bs, e, hb⟩ := showNat_head n
        exact ⟨b, bs, by simp [SeqOrUid.enc, e], .inl hb⟩
    have key' : ∀ q : Sequence, ∃ b bs, bytes q.enc = b :: bs ∧ (isDigit b = true ∨ b = 42) := by
      intro q
      unfold Sequence.enc
      generalize (if Quirks.alwaysNormalizeSequenceSets then q.normalize else q) = q
      cases q with
      | single a => exact key a
      | range a c =>
        obtain ⟨b, bs, e, hb⟩ := key a
        exact ⟨b, _, by simp [e]; rfl, hb⟩
    obtain ⟨b, bs, e, hb⟩ := key' q
    exact ⟨b, _, by simp [join, e]; rfl, hb⟩

theorem rt_searchKey (n : Nat) : ∀ (k : SearchKey) (r : Bytes), k.valid = true → k.depth ≤ n → Stops isAStringChar r = true →
    searchKey n (bytes k.enc ++ r) = .ok r k.norm := by
  induction n with
  | zero =>
    intro k r _ hd
    cases k <;> simp [SearchKey.depth] at hd
  | succ n ih =>
    intro k r hv hd hr
    rw [searchKey]
    cases k with
    | all =>
      alt_at 0
      rfl
    | answered =>
      alt_at 1
      rfl
    | bcc s =>
      alt_at 2
      simp [SearchKey.enc, tagNC, sp, char, SearchKey.norm, rt_astring (s := s) hv hr]
    | before d =>
      alt_at 3
      simp [SearchKey.enc, tagNC, sp, char, SearchKey.norm, rt_dateSome (d := d) (r := r) hv]
    | body s =>
      alt_at 4
      simp [SearchKey.enc, tagNC, sp, char, SearchKey.norm, rt_astring (s := s) hv hr]
    | cc s =>
      alt_at 5
      simp [SearchKey.enc, tagNC, sp, char, SearchKey.norm, rt_astring (s := s) hv hr]
    | deleted =>
      alt_at 6
      rfl
    | flagged =>
      alt_at 7
      rfl
    | from_ s =>
      alt_at 8
      simp [SearchKey.enc, tagNC, sp, char, SearchKey.norm, rt_astring (s := s) hv hr]
    | keyword a =>
      alt_at 9
      simp [SearchKey.enc, tagNC, sp, char, SearchKey.norm, rt_atom (s := a) hv (stops_atom hr)]
    | new =>
      alt_at 10
      rfl
    | old =>
      alt_at 11
      rfl
    | on d =>
      alt_at 12
      simp [SearchKey.enc, tagNC, sp, char, SearchKey.norm, rt_dateSome (d := d) (r := r) hv]
    | recent =>
      alt_at 13
      rfl
    | seen =>
      alt_at 14
      rfl
    | since d =>
      alt_at 15
      simp [SearchKey.enc, tagNC, sp, char, SearchKey.norm, rt_dateSome (d := d) (r := r) hv]
    | subject s =>
      alt_at 16
      simp [SearchKey.enc, tagNC, sp, char, SearchKey.norm, rt_astring (s := s) hv hr]
    | text s =>
      alt_at 17
      simp [SearchKey.enc, tagNC, sp, char, SearchKey.norm, rt_astring (s := s) hv hr]
    | «to» s =>
      alt_at 18
      simp [SearchKey.enc, tagNC, sp, char, SearchKey.norm, rt_astring (s := s) hv hr]
    | unanswered =>
      alt_at 19
      rfl
    | undeleted =>
      alt_at 20
      rfl
    | unflagged =>
      alt_at 21
      rfl
    | unkeyword a =>
      alt_at 22
      simp [SearchKey.enc, tagNC, sp, char, SearchKey.norm, rt_atom (s := a) hv (stops_atom hr)]
    | unseen =>
      alt_at 23
      rfl
    | draft =>
      alt_at 24
      rfl
    | header a v =>
      alt_at 25
      simp only [SearchKey.valid, Bool.and_eq_true] at hv
      have e1 := rt_astring (s := a) (r := 32 :: (bytes v.enc ++ r)) hv.1 rfl
      simp [SearchKey.enc, tagNC, sp, char, SearchKey.norm, e1, rt_astring (s := v) hv.2 hr]
    | larger m =>
      alt_at 26
      simp only [SearchKey.valid, decide_eq_true_eq] at hv
      simp [SearchKey.enc, tagNC, sp, char, SearchKey.norm, rt_number hv (stops_digit hr)]
    | not k =>
      alt_at 27
      simp only [SearchKey.valid, SearchKey.depth] at hv hd
      simp [SearchKey.enc, tagNC, sp, char, SearchKey.norm, ih k r hv (by omega) hr]
    | or a b =>
      alt_at 28
      simp only [SearchKey.valid, SearchKey.depth, Bool.and_eq_true] at hv hd
      have e1 := ih a (32 :: (bytes b.enc ++ r)) hv.1 (by omega) rfl
      simp [SearchKey.enc, tagNC, sp, char, SearchKey.norm, e1, ih b r hv.2 (by omega) hr]
    | sentBefore d =>
      alt_at 29
      simp [SearchKey.enc, tagNC, sp, char, SearchKey.norm, rt_dateSome (d := d) (r := r) hv]
    | sentOn d =>
      alt_at 30
      simp [SearchKey.enc, tagNC, sp, char, SearchKey.norm, rt_dateSome (d := d) (r := r) hv]
    | sentSince d =>
      alt_at 31
      simp [SearchKey.enc, tagNC, sp, char, SearchKey.norm, rt_dateSome (d := d) (r := r) hv]
    | smaller m =>
      alt_at 32
      simp only [SearchKey.valid, decide_eq_true_eq] at hv
      simp [SearchKey.enc, tagNC, sp, char, SearchKey.norm, rt_number hv (stops_digit hr)]
    | uid s =>
      alt_at 33
      simp [SearchKey.enc, tagNC, sp, char, SearchKey.norm, rt_sequenceSet (s := s) hv (stops_set hr)]
    | undraft =>
      alt_at 34
      rfl
    | modSequence e m =>
      simp only [SearchKey.valid, Bool.and_eq_true, decide_eq_true_eq] at hv
      have := rt_searchModsequence hv.1.2 hv.2 (stops_digit hr)
      alt_at 35
      rw [gate_on hv.1.1, P.map_apply]
      simp only [SearchKey.enc]
      rw [this]
      rfl
    | sequenceSet s =>
      have := rt_sequenceSet (s := s) hv (stops_set hr)
      obtain ⟨b, bs, h1, h2⟩ := encSet_head hv
      have h3 : isLetter b = false := by
        have key : ∀ b, isDigit b = true → isLetter b = false := forall_byte (by decide)
        rcases h2 with h2 | rfl
        · exact key b h2
        · rfl
      simp only [SearchKey.enc]
      rw [h1] at this ⊢
      rw [List.cons_append] at this
      skip_alts 35 using h3
      refine Eq.trans (alt_skip (gate_error (by simp [searchModsequence, tagNC_nonletter h3]))) ?_
      refine alt_hit ?_
      simp [this, SearchKey.norm]
    | and ks =>
      simp only [SearchKey.valid, SearchKey.depth, Bool.and_eq_true, SearchKey.valid_go] at hv hd
      have := sepList1_sp (p := searchKey n) (e := SearchKey.enc) (g := SearchKey.norm) (F := fun r => Stops isAStringChar r = true)
        (rest := 41 :: r) (l := ks) (by simpa using hv.1)
        (fun k hk r hr => ih k r (hv.2 k hk) (SearchKey.depth_go.1 (by omega) k hk) hr) (fun r => rfl) rfl rfl
      alt_at 37
      simp [SearchKey.enc, SearchKey.enc_go, tag, this, SearchKey.norm, SearchKey.norm_go]

end Imap
