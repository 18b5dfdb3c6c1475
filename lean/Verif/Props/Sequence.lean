import Verif.SeqNorm
import Verif.SeqSpec
/-!
Theorems about sequence sets: C19, C20, C21, C22, C33.
-/
namespace Imap

theorem ex_mem_map {α β : Type} (f : α → β) (l : List α) (P : β → Prop) : (∃ b ∈ l.map f, P b) ↔ ∃ a ∈ l, P (f a) := by
  constructor
  · rintro ⟨b, hb, h⟩
    obtain ⟨a, ha, rfl⟩ := List.mem_map.mp hb
    exact ⟨a, ha, h⟩
  · rintro ⟨a, ha, h⟩
    exact ⟨_, List.mem_map.mpr ⟨a, ha, rfl⟩, h⟩

theorem SeqOrUid.is_expand (a : SeqOrUid) (largest n : Nat) : a.Is largest n ↔ n = a.expand largest := by
  cases a <;> rfl

theorem Sequence.denotes_iff (q : Sequence) (largest n : Nat) : q.Denotes largest n ↔
    match q with
    | .single a => n = a.expand largest
    | .range a b => (a.expand largest ≤ n ∧ n ≤ b.expand largest) ∨ (b.expand largest ≤ n ∧ n ≤ a.expand largest) := by
  cases q with
  | single a => exact a.is_expand largest n
  | range a b => simp [Sequence.Denotes, SeqOrUid.is_expand]

theorem expand_bounds (a : SeqOrUid) (largest : Nat) (ha : a.wf = true) (hl : 1 ≤ largest ∧ largest ≤ u32Max) :
    1 ≤ a.expand largest ∧ a.expand largest ≤ u32Max := by
  cases a with
  | value v => simpa [SeqOrUid.wf, isNonZeroU32, SeqOrUid.expand] using ha
  | asterisk => exact hl

/-- C19: `iter` enumerates exactly the denoted numbers, in strictly ascending order; all of them are non-zero (so the
`NonZeroU32::new(..).unwrap()` of the iterator never panics). -/
theorem C19_iter_enumerates (s : SequenceSet) (largest : Nat) (hs : s.wf = true) (hl : 1 ≤ largest ∧ largest ≤ u32Max) :
    ∃ L, (s.iter largest).Yields L ∧ L.Pairwise (· < ·) ∧ (∀ n, n ∈ L ↔ s.Denotes largest n) ∧
      (∀ n ∈ L, 1 ≤ n ∧ n ≤ u32Max) := by
  have hw : ∀ q ∈ s, q.wf = true := by simp [SequenceSet.wf] at hs; exact hs.2
  have hpair : ∀ r ∈ simplify s largest true, r.1 ≤ r.2 ∧ r.2 ≤ u32Max ∧ 1 ≤ r.1 := by
    intro r hr
    obtain ⟨q, hq, rfl⟩ := List.mem_map.mp hr
    have := hw q hq
    cases q with
    | single a => have := expand_bounds a largest this hl; simp; omega
    | range a b =>
      simp [Sequence.wf] at this
      have h1 := expand_bounds a largest this.1 hl
      have h2 := expand_bounds b largest this.2 hl
      simp only [if_true]
      split <;> simp <;> omega
  have hin : ∀ n, InPairs (simplify s largest true) n ↔ s.Denotes largest n := by
    intro n
    unfold InPairs SequenceSet.Denotes simplify
    simp only [ex_mem_map]
    refine exists_congr fun q => and_congr_right fun _ => ?_
    rw [Sequence.denotes_iff]
    cases q with
    | single a => simp; omega
    | range a b => simp only [if_true]; split <;> simp <;> omega
  obtain ⟨c1, c2, c3⟩ := cleanup_spec (simplify s largest true) (fun r hr => ⟨(hpair r hr).1, (hpair r hr).2.1⟩)
  obtain ⟨f1, f2⟩ := flatMap_expand_sorted _ c2 c3
  have hmem : ∀ n, n ∈ (s.iter largest).toList ↔ s.Denotes largest n := by
    intro n
    rw [← hin, ← c1]
    exact f2 n
  refine ⟨(s.iter largest).toList, fun fuel => SeqIter.take_eq fuel _, f1, hmem, ?_⟩
  intro n hn
  rw [hmem, ← hin] at hn
  obtain ⟨r, hr, h1, h2⟩ := hn
  have := hpair r hr
  omega

/-- The hypotheses are met by a set with an overlap. -/
example := C19_iter_enumerates [.range (.value 5) .asterisk, .single (.value 7)] 9 (by decide) (by decide)

/-- Non-vacuity of C19: `3:1,*,2,7` with largest 9. -/
example : SequenceSet.wf [.range (.value 3) (.value 1), .single .asterisk, .single (.value 2), .single (.value 7)] = true ∧
    SeqIter.take 100 (SequenceSet.iter [.range (.value 3) (.value 1), .single .asterisk, .single (.value 2), .single (.value 7)] 9)
      = [1, 2, 3, 7, 9] := by decide

/-- C20: `iter_naive` yields the concatenation of the expansions, in order and with duplicates. -/
theorem C20_iter_naive_expands (s : SequenceSet) (largest : Nat) :
    (s.iterNaive largest).Yields (s.flatMap (Sequence.expansion largest)) := by
  intro fuel
  rw [SeqIter.take_eq]
  congr 1
  unfold SequenceSet.iterNaive SeqIter.toList simplify
  simp only [List.nil_append, List.flatMap_map]
  congr 1
  funext q
  have h1 : ∀ x, expandPair (x, x) = [x] := by intro x; simp [expandPair]
  cases q with
  | single a => cases a <;> exact h1 _
  | range a b => cases a <;> cases b <;> first | rfl | exact h1 _

/-- Non-vacuity of C20. -/
example : SeqIter.take 100 (SequenceSet.iterNaive [.range (.value 3) (.value 1), .single .asterisk, .single (.value 2)] 9)
      = [3, 2, 1, 9, 2] := by decide

/-! ### Normalization -/

/-- What a half-open range stands for, for a given largest number below `u32::MAX`. -/
def RangeDenotes (largest : Nat) (r : Nat × Nat) (n : Nat) : Prop :=
  (n ≤ largest ∧ r.1 ≤ n ∧ n < r.2) ∨ (n = largest ∧ r.2 = u32Max)

theorem normalize_denotes (q : Sequence) (largest n : Nat) : q.normalize.Denotes largest n ↔ q.Denotes largest n := by
  cases q with
  | single a => rfl
  | range a b =>
    simp only [Sequence.normalize]
    split_ifs with h1 h2
    · subst h1; rw [Sequence.denotes_iff, Sequence.denotes_iff]; simp; omega
    · rw [Sequence.denotes_iff, Sequence.denotes_iff]; simp; omega
    · rfl

theorem normalize_mentions (q : Sequence) (n : Nat) : q.normalize.Mentions n → q.Mentions n := by
  cases q with
  | single a => exact id
  | range a b =>
    simp only [Sequence.normalize]
    split_ifs with h1 h2 <;> simp only [Sequence.Mentions]
    · exact .inl
    · exact Or.symm
    · exact id

theorem normalize_hasStar (q : Sequence) : q.normalize.HasStar → q.HasStar := by
  cases q with
  | single a => exact id
  | range a b =>
    simp only [Sequence.normalize]
    split_ifs with h1 h2 <;> simp only [Sequence.HasStar]
    · exact .inl
    · exact Or.symm
    · exact id

theorem normalize_shape (q : Sequence) : ∀ a b, q.normalize = .range a b → a ≠ b ∧ a.gt b = false := by
  intro a b h
  cases q with
  | single c => cases h
  | range c d =>
    simp only [Sequence.normalize] at h
    split_ifs at h with h1 h2
    · cases h
      refine ⟨Ne.symm h1, ?_⟩
      cases a <;> cases b <;> simp_all [SeqOrUid.gt]; omega
    · cases h
      exact ⟨h1, by simpa using h2⟩

theorem halfOpen_denotes (q : Sequence) (largest : Nat) (hl : largest < u32Max) (hm : ∀ n, q.Mentions n → n ≤ largest) (n : Nat) :
    RangeDenotes largest q.normalize.toHalfOpen n ↔ q.Denotes largest n := by
  rw [← normalize_denotes]
  have hm' := fun n h => hm n (normalize_mentions q n h)
  have hsh := normalize_shape q
  generalize q.normalize = p at hm' hsh ⊢
  rw [Sequence.denotes_iff]
  cases p with
  | single a =>
    cases a with
    | value v =>
      have := hm' v rfl
      have e : satSucc v = v + 1 := by simp [satSucc]; omega
      simp only [RangeDenotes, Sequence.toHalfOpen, SeqOrUid.toNZ, e, SeqOrUid.expand]
      omega
    | asterisk =>
      simp only [RangeDenotes, Sequence.toHalfOpen, SeqOrUid.toNZ, satSucc, SeqOrUid.expand]
      simp; omega
  | range a b =>
    obtain ⟨h1, h2⟩ := hsh a b rfl
    cases a with
    | value v =>
      have hv := hm' v (.inl rfl)
      cases b with
      | value w =>
        have hw := hm' w (.inr rfl)
        simp [SeqOrUid.gt] at h1 h2
        have e : satSucc w = w + 1 := by simp [satSucc]; omega
        simp only [RangeDenotes, Sequence.toHalfOpen, SeqOrUid.toNZ, e, SeqOrUid.expand]
        omega
      | asterisk =>
        simp only [RangeDenotes, Sequence.toHalfOpen, SeqOrUid.toNZ, satSucc, SeqOrUid.expand]
        simp; omega
    | asterisk => cases b <;> simp [SeqOrUid.gt] at h1 h2

theorem ofHalfOpen_denotes (r : Nat × Nat) (hg : Good r) (largest : Nat) (hl : largest < u32Max)
    (h1 : r.1 ≤ largest ∨ r.1 = u32Max) (h2 : r.2 ≤ largest + 1 ∨ r.2 = u32Max) (n : Nat) :
    (ofHalfOpen r).Denotes largest n ↔ RangeDenotes largest r n := by
  rw [Sequence.denotes_iff]
  unfold Good at hg
  unfold RangeDenotes ofHalfOpen
  by_cases hm : r.1 = u32Max
  · have hm2 : r.2 = u32Max := by omega
    simp [hm, hm2, SeqOrUid.ofNZ, SeqOrUid.expand]; omega
  · have e : satSucc r.1 = r.1 + 1 := by unfold satSucc; split <;> omega
    rw [e]
    split_ifs with c1 c2
    · simp [SeqOrUid.ofNZ, hm, SeqOrUid.expand]; omega
    · simp [SeqOrUid.ofNZ, hm, SeqOrUid.expand]; omega
    · have : max r.2 2 - 1 ≠ u32Max := by omega
      simp [SeqOrUid.ofNZ, hm, this, SeqOrUid.expand]; omega

theorem halfOpen_ends (q : Sequence) (largest : Nat) (hm : ∀ n, q.Mentions n → n ≤ largest) :
    (q.normalize.toHalfOpen.1 ≤ largest ∨ (q.normalize.toHalfOpen.1 = u32Max ∧ q.HasStar)) ∧
    (q.normalize.toHalfOpen.2 ≤ largest + 1 ∨ (q.normalize.toHalfOpen.2 = u32Max ∧ q.HasStar)) := by
  have hm' := fun n h => hm n (normalize_mentions q n h)
  have hs := normalize_hasStar q
  generalize q.normalize = p at hm' hs ⊢
  have step : ∀ n, n ≤ largest → satSucc n ≤ largest + 1 := by intro n h; unfold satSucc; split <;> omega
  have hstar : satSucc u32Max = u32Max := by simp [satSucc]
  cases p with
  | single a =>
    cases a with
    | value v => have := hm' v rfl; exact ⟨.inl this, .inl (step v this)⟩
    | asterisk => exact ⟨.inr ⟨rfl, hs rfl⟩, .inr ⟨hstar, hs rfl⟩⟩
  | range a b =>
    constructor
    · cases a with
      | value v => exact .inl (hm' v (.inl rfl))
      | asterisk => exact .inr ⟨rfl, hs (.inl rfl)⟩
    · cases b with
      | value v => exact .inl (step v (hm' v (.inr rfl)))
      | asterisk => exact .inr ⟨hstar, hs (.inr rfl)⟩

theorem rangeDenotes_cov (l : List (Nat × Nat)) (hg : ∀ r ∈ l, Good r) (largest n : Nat) :
    (∃ r ∈ l, RangeDenotes largest r n) ↔ (n ≤ largest ∧ Cov l (2 * n + 1)) ∨ (n = largest ∧ Cov l (2 * u32Max)) := by
  constructor
  · rintro ⟨r, hr, h | h⟩
    · exact .inl ⟨h.1, r, hr, by omega, by omega⟩
    · have := (hg r hr).le
      exact .inr ⟨h.1, r, hr, by omega, by omega⟩
  · rintro (⟨h, r, hr, h1, h2⟩ | ⟨h, r, hr, h1, h2⟩)
    · exact ⟨r, hr, .inl ⟨h, by omega, by omega⟩⟩
    · have := (hg r hr).2.1
      exact ⟨r, hr, .inr ⟨h, by omega⟩⟩

/-- C21 (partial), first part: if no number written in the set exceeds `largest`, and `largest` is below `u32::MAX`,
normalization (with any hash iteration order and sorting algorithm) preserves the denoted set. The full statement (all
sets, all `largest`) is false, see `C21_fails_*`. -/
theorem C21_normalize_denotes_partial (s : SequenceSet) (hs : s.wf = true) (order : List Nat) (ho : IsOrder order s)
    (sort) (hsort : Sorts sort) (largest : Nat) (hl : largest < u32Max)
    (hm : ∀ q ∈ s, ∀ n, q.Mentions n → n ≤ largest) (n : Nat) :
    (s.normalizeWith order sort).Denotes largest n ↔ s.Denotes largest n := by
  rw [normalizeWith_eq order sort s hs ho hsort]
  obtain ⟨c1, c2, c3, c4⟩ := canon_spec s hs
  have e1 : SequenceSet.Denotes largest ((canon s).map ofHalfOpen) n ↔ ∃ r ∈ canon s, RangeDenotes largest r n := by
    unfold SequenceSet.Denotes
    simp only [ex_mem_map]
    refine exists_congr fun r => and_congr_right fun hr => ?_
    obtain ⟨⟨q, hq, eq⟩, ⟨p, hp, ep⟩⟩ := c4 r hr
    have h1 := (halfOpen_ends q largest (hm q hq)).1
    have h2 := (halfOpen_ends p largest (hm p hp)).2
    exact ofHalfOpen_denotes r (c2 r hr) largest hl (by rw [eq]; exact h1.imp id And.left) (by rw [ep]; exact h2.imp id And.left) n
  have e2 : s.Denotes largest n ↔ ∃ r ∈ (s.map Sequence.normalize).map Sequence.toHalfOpen, RangeDenotes largest r n := by
    unfold SequenceSet.Denotes
    simp only [ex_mem_map]
    exact exists_congr fun q => and_congr_right fun hq => (halfOpen_denotes q largest hl (hm q hq) n).symm
  rw [e1, e2, rangeDenotes_cov _ c2, rangeDenotes_cov _ (halfOpen_good s hs), c3, c3]

theorem denotes_noStar (s : SequenceSet) (h : ∀ q ∈ s, ¬ q.HasStar) (l m n : Nat) : s.Denotes l n ↔ s.Denotes m n := by
  unfold SequenceSet.Denotes
  refine exists_congr fun q => and_congr_right fun hq => ?_
  have := h q hq
  cases q with
  | single a => cases a <;> simp_all [Sequence.Denotes, SeqOrUid.Is, Sequence.HasStar]
  | range a b => cases a <;> cases b <;> simp_all [Sequence.Denotes, SeqOrUid.Is, Sequence.HasStar]

/-- C21 (partial), second part: without `*` and with numbers up to `u32::MAX - 2`, the denoted set is preserved for every
value of `largest`. -/
theorem C21_normalize_denotes_noStar_partial (s : SequenceSet) (hs : s.wf = true) (order : List Nat) (ho : IsOrder order s)
    (sort) (hsort : Sorts sort) (hstar : ∀ q ∈ s, ¬ q.HasStar)
    (hm : ∀ q ∈ s, ∀ n, q.Mentions n → n ≤ u32Max - 2) (largest n : Nat) :
    (s.normalizeWith order sort).Denotes largest n ↔ s.Denotes largest n := by
  have hres : ∀ q ∈ s.normalizeWith order sort, ¬ q.HasStar := by
    rw [normalizeWith_eq order sort s hs ho hsort]
    obtain ⟨c1, c2, c3, c4⟩ := canon_spec s hs
    intro q hq
    obtain ⟨r, hr, rfl⟩ := List.mem_map.mp hq
    obtain ⟨⟨q, hq, eq⟩, ⟨p, hp, ep⟩⟩ := c4 r hr
    have h1 := (halfOpen_ends q (u32Max - 2) (hm q hq)).1
    have h2 := (halfOpen_ends p (u32Max - 2) (hm p hp)).2
    have h1 := h1.resolve_right (fun h => hstar q hq h.2)
    have h2 := h2.resolve_right (fun h => hstar p hp h.2)
    have e1 : r.1 ≠ u32Max := by rw [eq]; simp [u32Max] at *; omega
    have e2 : r.2 ≠ u32Max := by rw [ep]; simp [u32Max] at *; omega
    have e3 : max r.2 2 - 1 ≠ u32Max := by rw [ep]; simp [u32Max] at *; omega
    unfold ofHalfOpen
    split_ifs <;> simp [Sequence.HasStar, SeqOrUid.ofNZ, e1, e3]
  rw [denotes_noStar _ hres largest (u32Max - 1) n, denotes_noStar s hstar largest (u32Max - 1) n]
  exact C21_normalize_denotes_partial s hs order ho sort hsort _ (by simp [u32Max])
    (fun q hq n h => by have := hm q hq n h; omega) n

/-- Non-vacuity of C21: `5:3,*,4,9` with largest 12 meets the hypotheses, and normalizes to `3:5,9,*`. -/
example : let s : SequenceSet := [.range (.value 5) (.value 3), .single .asterisk, .single (.value 4), .single (.value 9)]
    s.wf = true ∧ (∀ q ∈ s, ∀ n, q.Mentions n → n ≤ 12) ∧
    s.normalize = [.range (.value 3) (.value 5), .single (.value 9), .single .asterisk] := by
  refine ⟨by decide, ?_, by decide⟩
  simp [Sequence.Mentions]
  omega

theorem halfOpen_existing (q : Sequence) (hm : ∀ n, q.Mentions n → n ≤ u32Max - 2) (largest n : Nat)
    (hl : largest ≤ u32Max) (hn : n ≤ largest) :
    RangeDenotes largest q.normalize.toHalfOpen n ↔ q.Denotes largest n := by
  rw [← normalize_denotes]
  have hm' := fun n h => hm n (normalize_mentions q n h)
  have hsh := normalize_shape q
  have hu : 2 ≤ u32Max := by decide
  generalize q.normalize = p at hm' hsh ⊢
  rw [Sequence.denotes_iff]
  cases p with
  | single a =>
    cases a with
    | value v =>
      have := hm' v rfl
      have e : satSucc v = v + 1 := by unfold satSucc; split <;> omega
      simp only [RangeDenotes, Sequence.toHalfOpen, SeqOrUid.toNZ, e, SeqOrUid.expand]
      omega
    | asterisk =>
      simp only [RangeDenotes, Sequence.toHalfOpen, SeqOrUid.toNZ, satSucc, SeqOrUid.expand]
      simp; omega
  | range a b =>
    obtain ⟨h1, h2⟩ := hsh a b rfl
    cases a with
    | value v =>
      have hv := hm' v (.inl rfl)
      cases b with
      | value w =>
        have hw := hm' w (.inr rfl)
        simp [SeqOrUid.gt] at h1 h2
        have e : satSucc w = w + 1 := by unfold satSucc; split <;> omega
        simp only [RangeDenotes, Sequence.toHalfOpen, SeqOrUid.toNZ, e, SeqOrUid.expand]
        omega
      | asterisk =>
        simp only [RangeDenotes, Sequence.toHalfOpen, SeqOrUid.toNZ, satSucc, SeqOrUid.expand]
        simp; omega
    | asterisk => cases b <;> simp [SeqOrUid.gt] at h1 h2

theorem ofHalfOpen_existing (r : Nat × Nat) (hg : Good r) (largest n : Nat) (hl : largest ≤ u32Max) (hn : n ≤ largest)
    (h1 : r.1 ≤ u32Max - 2 ∨ r.1 = u32Max) (h2 : r.2 ≤ u32Max - 1 ∨ r.2 = u32Max) :
    (ofHalfOpen r).Denotes largest n ↔ RangeDenotes largest r n := by
  rw [Sequence.denotes_iff]
  have hu : 2 ≤ u32Max := by decide
  unfold Good at hg
  unfold RangeDenotes ofHalfOpen
  by_cases hm : r.1 = u32Max
  · have hm2 : r.2 = u32Max := by omega
    simp [hm, hm2, SeqOrUid.ofNZ, SeqOrUid.expand]; omega
  · have e : satSucc r.1 = r.1 + 1 := by unfold satSucc; split <;> omega
    rw [e]
    split_ifs with c1 c2
    · simp [SeqOrUid.ofNZ, hm, SeqOrUid.expand]; omega
    · simp [SeqOrUid.ofNZ, hm, SeqOrUid.expand]; omega
    · have : max r.2 2 - 1 ≠ u32Max := by omega
      simp [SeqOrUid.ofNZ, hm, this, SeqOrUid.expand]; omega

/-- C21 (partial), third part: for the messages a mailbox can have (numbers up to `largest`), normalization preserves
the denoted set, whatever `largest` is and whether or not the set contains `*` or numbers of messages that do not exist,
as long as it does not mention the two numbers `u32::MAX - 1` and `u32::MAX`. -/
theorem C21_normalize_existing_partial (s : SequenceSet) (hs : s.wf = true) (order : List Nat) (ho : IsOrder order s)
    (sort) (hsort : Sorts sort) (hm : ∀ q ∈ s, ∀ n, q.Mentions n → n ≤ u32Max - 2)
    (largest n : Nat) (hl : largest ≤ u32Max) (hn : n ≤ largest) :
    (s.normalizeWith order sort).Denotes largest n ↔ s.Denotes largest n := by
  have hu : 2 ≤ u32Max := by decide
  rw [normalizeWith_eq order sort s hs ho hsort]
  obtain ⟨c1, c2, c3, c4⟩ := canon_spec s hs
  have e1 : SequenceSet.Denotes largest ((canon s).map ofHalfOpen) n ↔ ∃ r ∈ canon s, RangeDenotes largest r n := by
    unfold SequenceSet.Denotes
    simp only [ex_mem_map]
    refine exists_congr fun r => and_congr_right fun hr => ?_
    obtain ⟨⟨q, hq, eq⟩, ⟨p, hp, ep⟩⟩ := c4 r hr
    have h1 := (halfOpen_ends q _ (hm q hq)).1
    have h2 := (halfOpen_ends p _ (hm p hp)).2
    exact ofHalfOpen_existing r (c2 r hr) largest n hl hn (by rw [eq]; exact h1.imp id And.left)
      (by rw [ep]; exact h2.imp (fun h => by omega) And.left)
  have e2 : s.Denotes largest n ↔ ∃ r ∈ (s.map Sequence.normalize).map Sequence.toHalfOpen, RangeDenotes largest r n := by
    unfold SequenceSet.Denotes
    simp only [ex_mem_map]
    exact exists_congr fun q => and_congr_right fun hq => (halfOpen_existing q (hm q hq) largest n hl hn).symm
  rw [e1, e2, rangeDenotes_cov _ c2, rangeDenotes_cov _ (halfOpen_good s hs), c3, c3]

/-- Non-vacuity of the third part: `3:4,5:*` (of `C21_fails_star_merged`) in a mailbox with 3 messages. -/
example : let s : SequenceSet := [.range (.value 3) (.value 4), .range (.value 5) .asterisk]
    s.wf = true ∧ (∀ q ∈ s, ∀ n, q.Mentions n → n ≤ u32Max - 2) ∧ s.Denotes 3 3 ∧
    s.normalize = [.range (.value 3) .asterisk] := by
  refine ⟨by decide, ?_, ⟨_, .head _, 3, 4, rfl, rfl, by omega⟩, by decide⟩
  simp [Sequence.Mentions, u32Max]
  omega

/-- The bound of the third part is sharp: `9:4294967294` normalizes to
`9:*`, which denotes the last message of every mailbox. -/
theorem C21_fails_existing : ∃ s : SequenceSet, s.wf = true ∧ (∀ q ∈ s, ∀ n, q.Mentions n → n ≤ u32Max - 1) ∧
    ∃ largest n, 1 ≤ n ∧ n ≤ largest ∧ largest < u32Max ∧ ¬ s.Denotes largest n ∧ s.normalize.Denotes largest n := by
  refine ⟨[.range (.value 9) (.value 4294967294)], by decide, ?_, 7, 7, by decide, by decide, by decide, ?_, ?_⟩
  · simp [Sequence.Mentions, u32Max]; omega
  · rintro ⟨q, hq, h⟩
    simp at hq
    subst hq
    obtain ⟨x, y, hx, hy, h⟩ := h
    simp [SeqOrUid.Is] at hx hy
    omega
  · rw [show SequenceSet.normalize [.range (.value 9) (.value 4294967294)] = [.range (.value 9) .asterisk] by decide]
    exact ⟨_, .head _, 9, 7, rfl, rfl, by omega⟩

/-- The full C21 is false: `4294967294,*` normalizes to `4294967294`, dropping `*`. -/
theorem C21_fails_star_dropped : ∃ s : SequenceSet, s.wf = true ∧ ∃ largest n, 1 ≤ largest ∧ largest ≤ u32Max ∧
    s.Denotes largest n ∧ ¬ s.normalize.Denotes largest n := by
  refine ⟨[.single (.value 4294967294), .single .asterisk], by decide, 7, 7, by decide, by decide, ?_, ?_⟩
  · exact ⟨.single .asterisk, by simp, rfl⟩
  · rw [show SequenceSet.normalize [.single (.value 4294967294), .single .asterisk] = [.single (.value 4294967294)] by decide]
    rintro ⟨q, hq, h⟩
    simp at hq
    subst hq
    simp [Sequence.Denotes, SeqOrUid.Is] at h

/-- The full C21 is false: `3:4,5:*` normalizes to `3:*`, which no longer denotes 4 in a mailbox with 3 messages. -/
theorem C21_fails_star_merged : ∃ s : SequenceSet, s.wf = true ∧ ∃ largest n, 1 ≤ largest ∧ largest < u32Max ∧
    s.Denotes largest n ∧ ¬ s.normalize.Denotes largest n := by
  refine ⟨[.range (.value 3) (.value 4), .range (.value 5) .asterisk], by decide, 3, 4, by decide, by decide, ?_, ?_⟩
  · exact ⟨.range (.value 3) (.value 4), by simp, 3, 4, rfl, rfl, by omega⟩
  · rw [show SequenceSet.normalize [.range (.value 3) (.value 4), .range (.value 5) .asterisk] = [.range (.value 3) .asterisk] by decide]
    rintro ⟨q, hq, h⟩
    simp at hq
    subst hq
    obtain ⟨x, y, hx, hy, h⟩ := h
    simp [SeqOrUid.Is] at hx hy
    omega

/-! ### Canonical form -/

/-- Lowest number of an element, with `*` above every number. -/
def Sequence.lo : Sequence → SeqOrUid
  | .single a => a
  | .range a _ => a

/-- Highest number of an element. -/
def Sequence.hi : Sequence → SeqOrUid
  | .single a => a
  | .range _ b => b

/-- The canonical form: each range goes up strictly; each element ends at a plain number `y`, except possibly the last; the next
element starts at `*` or at a number greater than `y + 1` (so the elements are sorted, disjoint and not adjacent). -/
structure Canonical (s : SequenceSet) : Prop where
  nonempty : s ≠ []
  up : ∀ a b, Sequence.range a b ∈ s → ∃ x, a = .value x ∧ (b = .asterisk ∨ ∃ y, b = .value y ∧ x < y)
  gap : s.Pairwise fun p q => ∃ y, p.hi = .value y ∧ (q.lo = .asterisk ∨ ∃ x, q.lo = .value x ∧ y + 1 < x)

theorem mergeSorted_ne_nil (l : List (Nat × Nat)) (h : l ≠ []) : mergeSorted l ≠ [] := by
  cases l with
  | nil => exact absurd rfl h
  | cons r rs =>
    simp only [mergeSorted]
    clear h
    induction rs generalizing r with
    | nil => simp [mergeLoop]
    | cons q qs ih =>
      unfold mergeLoop
      split
      · exact ih _
      · simp

theorem canon_ne_nil (s : SequenceSet) (hs : s.wf = true) : canon s ≠ [] := by
  apply mergeSorted_ne_nil
  intro h
  have := (sortByKey_perm Prod.fst ((s.map Sequence.normalize).map Sequence.toHalfOpen)).length_eq
  rw [h] at this
  simp at this
  simp [SequenceSet.wf] at hs
  exact hs.1 (List.length_eq_zero_iff.mp this.symm)

theorem wf_ofHalfOpen (r : Nat × Nat) (hg : Good r) : (ofHalfOpen r).wf = true := by
  have hnz : ∀ n, 1 ≤ n → n ≤ u32Max → (SeqOrUid.ofNZ n).wf = true := by
    intro n h1 h2
    unfold SeqOrUid.ofNZ
    split
    · rfl
    · simp [SeqOrUid.wf, isNonZeroU32, h1, h2]
  have hle := hg.le
  unfold Good at hg
  unfold ofHalfOpen
  split_ifs with h1 h2
  · exact hnz _ (by omega) (by omega)
  · simp only [Sequence.wf, hnz _ hg.1 (by omega), Bool.true_and]; rfl
  · simp only [Sequence.wf, hnz _ hg.1 (by omega), Bool.true_and]
    exact hnz _ (by omega) (by omega)

theorem normalizeWith_wf (order sort) (s : SequenceSet) (hs : s.wf = true) (ho : IsOrder order s) (hsort : Sorts sort) :
    (s.normalizeWith order sort).wf = true := by
  rw [normalizeWith_eq order sort s hs ho hsort]
  obtain ⟨c1, c2, c3, c4⟩ := canon_spec s hs
  simp only [SequenceSet.wf, Bool.and_eq_true, List.all_map, List.all_eq_true]
  refine ⟨?_, fun r hr => wf_ofHalfOpen r (c2 r hr)⟩
  have := canon_ne_nil s hs
  cases h : canon s <;> simp_all

theorem ofHalfOpen_normalize (r : Nat × Nat) (hg : Good r) : (ofHalfOpen r).normalize = ofHalfOpen r := by
  have hle := hg.le
  unfold Good at hg
  unfold ofHalfOpen satSucc
  split_ifs with h1 h2 h3 h4 h5 <;> try rfl
  all_goals simp only [Sequence.normalize]
  · have : SeqOrUid.ofNZ r.1 = .value r.1 := by simp [SeqOrUid.ofNZ]; omega
    rw [this]; simp [SeqOrUid.gt]
  · have e1 : SeqOrUid.ofNZ r.1 = .value r.1 := by simp [SeqOrUid.ofNZ]; omega
    have e2 : SeqOrUid.ofNZ (max r.2 2 - 1) = .value (max r.2 2 - 1) := by simp [SeqOrUid.ofNZ]; omega
    rw [e1, e2]
    have : ¬ r.1 = max r.2 2 - 1 := by omega
    simp [SeqOrUid.gt, this]; omega
  · omega
  · omega

theorem toHalfOpen_ofHalfOpen (r : Nat × Nat) (hg : Good r) : (ofHalfOpen r).toHalfOpen = r := by
  have hle := hg.le
  unfold Good at hg
  obtain ⟨a, b⟩ := r
  simp only at hg hle
  unfold ofHalfOpen
  split_ifs with h1 h2
  · simp only [Sequence.toHalfOpen, ofNZ_toNZ]
    rcases h1 with h1 | h1
    · simp only at h1
      have : a = u32Max := by omega
      subst this
      simp [satSucc]; omega
    · simp only at h1; rw [h1]
  · simp only at h2
    subst h2
    simp only [Sequence.toHalfOpen, ofNZ_toNZ]; simp [SeqOrUid.toNZ, satSucc]
  · simp only [Sequence.toHalfOpen, ofNZ_toNZ]
    simp only [satSucc] at h1 ⊢
    congr 1
    simp only at h2
    split <;> omega

/-- C22, canonical form: the result is well-formed (in particular not empty), sorted, disjoint and non-adjacent,
for every iteration order of the hash set and every sorting algorithm. -/
theorem C22_normalize_canonical (s : SequenceSet) (hs : s.wf = true) (order) (ho : IsOrder order s) (sort) (hsort : Sorts sort) :
    Canonical (s.normalizeWith order sort) ∧ (s.normalizeWith order sort).wf = true := by
  refine ⟨?_, normalizeWith_wf order sort s hs ho hsort⟩
  rw [normalizeWith_eq order sort s hs ho hsort]
  obtain ⟨c1, c2, c3, c4⟩ := canon_spec s hs
  refine ⟨by simp [canon_ne_nil s hs], ?_, ?_⟩
  · intro a b hab
    obtain ⟨r, hr, h⟩ := List.mem_map.mp hab
    have hg := c2 r hr
    have hle := hg.le
    unfold Good at hg
    unfold ofHalfOpen at h
    have e1 : r.1 ≠ u32Max → SeqOrUid.ofNZ r.1 = .value r.1 := by intro h; simp [SeqOrUid.ofNZ, h]
    split_ifs at h with h1 h2
    · cases h
      exact ⟨r.1, e1 (by omega), .inl rfl⟩
    · cases h
      refine ⟨r.1, e1 (by omega), .inr ⟨max r.2 2 - 1, ?_, ?_⟩⟩
      · simp [SeqOrUid.ofNZ]; omega
      · unfold satSucc at h1; split at h1 <;> omega
  · rw [List.pairwise_map]
    refine List.Pairwise.imp_of_mem ?_ c1.pw
    intro p q hp hq hpq
    have gp := c2 p hp
    have gq := c2 q hq
    have lp := gp.le
    have lq := gq.le
    unfold Good at gp gq
    have hlo : (ofHalfOpen q).lo = .ofNZ q.1 := by unfold ofHalfOpen; split_ifs <;> rfl
    have hhi : (ofHalfOpen p).hi = .value (p.2 - 1) := by
      unfold ofHalfOpen satSucc
      split_ifs with h1 h2 h3 h4 <;> simp only [Sequence.hi, SeqOrUid.ofNZ] <;> first | omega | (split_ifs <;> first | omega | (congr 1; omega))
    refine ⟨p.2 - 1, hhi, ?_⟩
    rw [hlo]
    unfold SeqOrUid.ofNZ
    split_ifs
    · exact .inl rfl
    · exact .inr ⟨_, rfl, by omega⟩

/-- C22, determinism: the result does not depend on the iteration order of the hash set or on the sorting algorithm. -/
theorem C22_normalize_order_independent (s : SequenceSet) (hs : s.wf = true) (order order') (ho : IsOrder order s)
    (ho' : IsOrder order' s) (sort sort') (hsort : Sorts sort) (hsort' : Sorts sort') :
    s.normalizeWith order sort = s.normalizeWith order' sort' := by
  rw [normalizeWith_eq order sort s hs ho hsort, normalizeWith_eq order' sort' s hs ho' hsort']

/-- C22, idempotence: normalizing twice is normalizing once. -/
theorem C22_normalize_idempotent (s : SequenceSet) (hs : s.wf = true) (order) (ho : IsOrder order s) (sort) (hsort : Sorts sort)
    (order') (ho' : IsOrder order' (s.normalizeWith order sort)) (sort') (hsort' : Sorts sort') :
    (s.normalizeWith order sort).normalizeWith order' sort' = s.normalizeWith order sort := by
  rw [normalizeWith_eq order' sort' _ (normalizeWith_wf order sort s hs ho hsort) ho' hsort']
  rw [normalizeWith_eq order sort s hs ho hsort]
  congr 1
  obtain ⟨c1, c2, c3, c4⟩ := canon_spec s hs
  have e : (((canon s).map ofHalfOpen).map Sequence.normalize).map Sequence.toHalfOpen = canon s := by
    rw [List.map_map, List.map_map]
    refine (List.map_congr_left (g := id) ?_).trans (List.map_id _)
    intro r hr
    simp only [Function.comp, id]
    rw [ofHalfOpen_normalize r (c2 r hr), toHalfOpen_ofHalfOpen r (c2 r hr)]
  obtain ⟨m1, m2, _⟩ := mergeSorted_spec _ sortByKey_sorts (canon s) c1.le
  unfold canon at *
  rw [e]
  exact m2.unique c1 m1

/-- Non-vacuity of C22: two different iteration orders of the singles of `7,5,6,2:1` and the (common) result. -/
example : let s : SequenceSet := [.single (.value 7), .single (.value 5), .single (.value 6), .range (.value 2) (.value 1)]
    s.wf = true ∧ IsOrder [7, 5, 6] s ∧ IsOrder [6, 7, 5] s ∧ Sorts (sortByKey Prod.fst) ∧
    s.normalizeWith [6, 7, 5] (sortByKey Prod.fst) = [.range (.value 1) (.value 2), .range (.value 5) (.value 7)] := by
  refine ⟨by decide, ?_, ?_, sortByKey_sorts, by decide⟩
  · exact (show [7, 5, 6].Perm [7, 5, 6] by decide)
  · exact (show [6, 7, 5].Perm [7, 5, 6] by decide)

/-! ### Conversions from ranges -/

/-- An integer type with the usual bounds (contains 0 and 1). -/
def IntTy.ok (t : IntTy) : Prop := t.min ≤ 0 ∧ 1 ≤ t.max

theorem ofInt_some {x : Int} {a : SeqOrUid} : SeqOrUid.ofInt x = some a ↔ 1 ≤ x ∧ x ≤ u32Max ∧ a = .value x.toNat := by
  unfold SeqOrUid.ofInt
  split
  · constructor
    · intro h; cases h; simp [*]
    · rintro ⟨_, _, rfl⟩; rfl
  · simp; omega

/-- C33 (partial), integers, `a..b` and `a..=b`: for a non-empty range (`a < b`, resp. `a ≤ b`) the conversion succeeds iff all the
integers of the range are representable, and then the sequence denotes exactly these integers, whatever `largest` is.
The full statement fails for empty and reversed ranges, see `C33_fails_empty` and `C33_fails_reversed`. -/
theorem C33_int_range_partial (t : IntTy) (ht : t.ok) (start stop : Int) (h : start < stop) (hty : t.min ≤ start) :
    ((Sequence.ofRange t start stop).isSome ↔ ∀ i, start ≤ i → i < stop → 1 ≤ i ∧ i ≤ u32Max) ∧
    ∀ q, Sequence.ofRange t start stop = some q → ∀ largest n, q.Denotes largest n ↔ start ≤ (n : Int) ∧ (n : Int) < stop := by
  have hp : t.satPred stop = stop - 1 := by unfold IntTy.satPred; split <;> omega
  constructor
  · unfold Sequence.ofRange
    rw [hp]
    simp only [SeqOrUid.ofInt]
    constructor
    · intro hs i h1 h2
      split_ifs at hs <;> simp at hs
      omega
    · intro hi
      have h1 := hi start (by omega) (by omega)
      have h2 := hi (stop - 1) (by omega) (by omega)
      rw [if_pos h1, if_pos h2]; rfl
  · intro q hq largest n
    unfold Sequence.ofRange at hq
    rw [hp] at hq
    simp only [SeqOrUid.ofInt] at hq
    split_ifs at hq <;> simp at hq
    subst hq
    rw [Sequence.denotes_iff]
    simp [SeqOrUid.expand]
    omega

theorem C33_int_range_inclusive_partial (start stop : Int) (h : start ≤ stop) :
    ((Sequence.ofRangeInclusive start stop).isSome ↔ ∀ i, start ≤ i → i ≤ stop → 1 ≤ i ∧ i ≤ u32Max) ∧
    ∀ q, Sequence.ofRangeInclusive start stop = some q → ∀ largest n, q.Denotes largest n ↔ start ≤ (n : Int) ∧ (n : Int) ≤ stop := by
  constructor
  · unfold Sequence.ofRangeInclusive
    simp only [SeqOrUid.ofInt]
    constructor
    · intro hs i h1 h2
      split_ifs at hs <;> simp at hs
      omega
    · intro hi
      have h1 := hi start (by omega) (by omega)
      have h2 := hi stop (by omega) (by omega)
      rw [if_pos h1, if_pos h2]; rfl
  · intro q hq largest n
    unfold Sequence.ofRangeInclusive at hq
    simp only [SeqOrUid.ofInt] at hq
    split_ifs at hq <;> simp at hq
    subst hq
    rw [Sequence.denotes_iff]
    simp [SeqOrUid.expand]
    omega

/-- C33, integers, `a..`, `..b` and `..=b`: success iff representable (`..b` and `..=b` stand for the numbers from 1), and the
sequence denotes exactly the range (for `a..` up to `largest`, provided `a ≤ largest`). -/
theorem C33_int_range_open_partial (t : IntTy) (ht : t.ok) (x : Int) (hx : t.min ≤ x) :
    ((Sequence.ofRangeFrom x).isSome ↔ 1 ≤ x ∧ x ≤ u32Max) ∧
    (∀ q, Sequence.ofRangeFrom x = some q → ∀ largest : Nat, x ≤ largest → ∀ n, q.Denotes largest n ↔ x ≤ (n : Int) ∧ n ≤ largest) ∧
    ((Sequence.ofRangeTo t x).isSome ↔ 1 < x ∧ x ≤ u32Max + 1) ∧
    (∀ q, Sequence.ofRangeTo t x = some q → ∀ largest n, q.Denotes largest n ↔ 1 ≤ (n : Int) ∧ (n : Int) < x) ∧
    ((Sequence.ofRangeToInclusive x).isSome ↔ 1 ≤ x ∧ x ≤ u32Max) ∧
    (∀ q, Sequence.ofRangeToInclusive x = some q → ∀ largest n, q.Denotes largest n ↔ 1 ≤ (n : Int) ∧ (n : Int) ≤ x) := by
  have e1 : SeqOrUid.ofNZ 1 = .value 1 := by decide
  have hp : t.satPred x = if t.min < x then x - 1 else t.min := rfl
  have ht1 := ht.1
  refine ⟨?_, ?_, ?_, ?_, ?_, ?_⟩
  · unfold Sequence.ofRangeFrom SeqOrUid.ofInt
    split <;> simp [*]
  · intro q hq largest hl n
    unfold Sequence.ofRangeFrom SeqOrUid.ofInt at hq
    split at hq <;> simp at hq
    subst hq
    rw [Sequence.denotes_iff]; simp [SeqOrUid.expand]; omega
  · unfold Sequence.ofRangeTo SeqOrUid.ofInt
    rw [hp]
    split_ifs <;> simp <;> omega
  · intro q hq largest n
    unfold Sequence.ofRangeTo SeqOrUid.ofInt at hq
    rw [hp] at hq
    split_ifs at hq <;> simp at hq
    · subst hq
      rw [Sequence.denotes_iff]; simp [e1, SeqOrUid.expand]; omega
    · omega
  · unfold Sequence.ofRangeToInclusive SeqOrUid.ofInt
    split <;> simp [*]
  · intro q hq largest n
    unfold Sequence.ofRangeToInclusive SeqOrUid.ofInt at hq
    split at hq <;> simp at hq
    subst hq
    rw [Sequence.denotes_iff]; simp [e1, SeqOrUid.expand]; omega

/-- C33 (partial), `NonZeroU32`: the conversions of `a..`, `..b`, `..=b` and `a..=b` (the latter two below `u32::MAX`, which
stands for `*`) are exact. `a..b` is not, see `C33_fails_nonzero_range`. -/
theorem C33_nonzero_range_partial (a b : Nat) (ha : 1 ≤ a) (hb : b < u32Max) (hb1 : 1 ≤ b) :
    (∀ largest n, a < u32Max → a ≤ largest → ((Sequence.ofNZRangeFrom a).Denotes largest n ↔ a ≤ n ∧ n ≤ largest)) ∧
    (a ≤ b → ∀ largest n, (Sequence.ofNZRangeInclusive a b).Denotes largest n ↔ a ≤ n ∧ n ≤ b) ∧
    (∀ largest n, (Sequence.ofNZRangeToInclusive b).Denotes largest n ↔ 1 ≤ n ∧ n ≤ b) ∧
    ((Sequence.ofNZRangeTo b).isSome ↔ 1 < b) ∧
    (∀ q, Sequence.ofNZRangeTo b = some q → ∀ largest n, q.Denotes largest n ↔ 1 ≤ n ∧ n < b) ∧
    (∀ largest n, 1 ≤ largest → (Sequence.ofRangeFull.Denotes largest n ↔ 1 ≤ n ∧ n ≤ largest)) := by
  have e1 : SeqOrUid.ofNZ 1 = .value 1 := by decide
  have eb : SeqOrUid.ofNZ b = .value b := by simp [SeqOrUid.ofNZ]; omega
  refine ⟨?_, ?_, ?_, ?_, ?_, ?_⟩
  · intro largest n h1 h2
    have ea : SeqOrUid.ofNZ a = .value a := by simp [SeqOrUid.ofNZ]; omega
    rw [Sequence.ofNZRangeFrom, ea, Sequence.denotes_iff]; simp [SeqOrUid.expand]; omega
  · intro h largest n
    have ea : SeqOrUid.ofNZ a = .value a := by simp [SeqOrUid.ofNZ]; omega
    rw [Sequence.ofNZRangeInclusive, ea, eb, Sequence.denotes_iff]; simp [SeqOrUid.expand]; omega
  · intro largest n
    rw [Sequence.ofNZRangeToInclusive, Sequence.ofNZRangeInclusive, e1, eb, Sequence.denotes_iff]; simp [SeqOrUid.expand]; omega
  · unfold Sequence.ofNZRangeTo Sequence.ofNZRange SeqOrUid.ofInt
    split <;> simp <;> omega
  · intro q hq largest n
    unfold Sequence.ofNZRangeTo Sequence.ofNZRange SeqOrUid.ofInt at hq
    split at hq <;> simp at hq
    subst hq
    rw [Sequence.denotes_iff]; simp [e1, SeqOrUid.expand]; omega
  · intro largest n h
    rw [Sequence.ofRangeFull, Sequence.ofNZRangeFrom, e1, Sequence.denotes_iff]; simp [SeqOrUid.expand]; omega

/-- The bounds of `u8`, used in the examples below. -/
def u8Ty : IntTy := ⟨0, 255⟩

/-- Non-vacuity of C33. -/
example : u8Ty.ok ∧ Sequence.ofRange u8Ty 3 10 = some (.range (.value 3) (.value 9)) ∧
    Sequence.ofRangeInclusive 3 10 = some (.range (.value 3) (.value 10)) ∧ Sequence.ofRange u8Ty 0 10 = none ∧
    Sequence.ofRangeTo u8Ty 10 = some (.range (.value 1) (.value 9)) ∧
    Sequence.ofNZRangeInclusive 4 7 = .range (.value 4) (.value 7) := ⟨⟨by decide, by decide⟩, by decide⟩

/-- The full C33 is false: the empty range `5..5` converts to a sequence that denotes 5. -/
theorem C33_fails_empty : ∃ (start stop : Int) (q : Sequence), ¬ start < stop ∧ Sequence.ofRange u8Ty start stop = some q ∧
    ∀ largest, q.Denotes largest 5 :=
  ⟨5, 5, .range (.value 5) (.value 4), by omega, by decide, fun _ => ⟨5, 4, rfl, rfl, by omega⟩⟩

/-- The full C33 is false: the empty range `10..=5` converts to a sequence that denotes 7. -/
theorem C33_fails_reversed : ∃ (start stop : Int) (q : Sequence), ¬ start ≤ stop ∧ Sequence.ofRangeInclusive start stop = some q ∧
    ∀ largest, q.Denotes largest 7 :=
  ⟨10, 5, .range (.value 10) (.value 5), by omega, by decide, fun _ => ⟨10, 5, rfl, rfl, by omega⟩⟩

/-- The full C33 is false: the conversion of `a..b` for `NonZeroU32` ignores `a`: `5..10` converts to `1:9`. -/
theorem C33_fails_nonzero_range : ∃ (start stop : Nat) (q : Sequence), 1 ≤ start ∧ start < stop ∧ Sequence.ofNZRange start stop = some q ∧
    ∀ largest, q.Denotes largest 1 ∧ ¬ start ≤ 1 :=
  ⟨5, 10, .range (.value 1) (.value 9), by omega, by omega, by decide, fun _ => ⟨⟨1, 9, rfl, rfl, by omega⟩, by omega⟩⟩

end Imap
