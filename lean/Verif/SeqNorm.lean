import Verif.SeqLemmas
namespace Imap

/-! ### Sorting by key -/

theorem insertByKey_perm {α : Type} (key : α → Nat) (x : α) (l : List α) : (insertByKey key x l).Perm (x :: l) := by
  induction l with
  | nil => exact .refl _
  | cons y ys ih =>
    unfold insertByKey
    split
    · exact .refl _
    · exact (ih.cons y).trans (.swap x y ys)

theorem sortByKey_perm {α : Type} (key : α → Nat) (l : List α) : (sortByKey key l).Perm l := by
  induction l with
  | nil => exact .refl _
  | cons x xs ih => exact (insertByKey_perm _ _ _).trans (ih.cons x)

theorem insertByKey_sorted {α : Type} (key : α → Nat) (x : α) (l : List α) (h : l.Pairwise (fun a b => key a ≤ key b)) :
    (insertByKey key x l).Pairwise (fun a b => key a ≤ key b) := by
  induction l with
  | nil => simp [insertByKey]
  | cons y ys ih =>
    unfold insertByKey
    rw [List.pairwise_cons] at h
    split
    · rename_i hc
      rw [List.pairwise_cons, List.pairwise_cons]
      refine ⟨?_, h.1, h.2⟩
      intro z hz
      rcases List.mem_cons.mp hz with rfl | hz
      · exact hc
      · have := h.1 z hz; omega
    · rename_i hc
      rw [List.pairwise_cons]
      refine ⟨?_, ih h.2⟩
      intro z hz
      rcases List.mem_cons.mp ((insertByKey_perm key x ys).mem_iff.mp hz) with rfl | hz
      · omega
      · exact h.1 z hz

theorem sortByKey_sorted {α : Type} (key : α → Nat) (l : List α) : (sortByKey key l).Pairwise (fun a b => key a ≤ key b) := by
  induction l with
  | nil => simp [sortByKey]
  | cons x xs ih => exact insertByKey_sorted _ _ _ ih

theorem sortByKey_of_sorted {α : Type} (key : α → Nat) (l : List α) (h : l.Pairwise (fun a b => key a ≤ key b)) :
    sortByKey key l = l := by
  induction l with
  | nil => rfl
  | cons x xs ih =>
    rw [List.pairwise_cons] at h
    simp only [sortByKey, ih h.2]
    cases xs with
    | nil => rfl
    | cons y ys => simp [insertByKey, h.1 y (by simp)]

/-! ### Coverage -/

/-- Doubled coordinates: the even point `2n` is the number n, the odd point `2n+1` lies between n and n+1. -/
def Cov (l : List (Nat × Nat)) (x : Nat) : Prop := ∃ r ∈ l, 2 * r.1 ≤ x ∧ x ≤ 2 * r.2

theorem Cov.cons {r l x} : Cov (r :: l) x ↔ (2 * r.1 ≤ x ∧ x ≤ 2 * r.2) ∨ Cov l x := by
  simp [Cov]

/-- Separated, sorted, non-reversed ranges. -/
structure Sep (l : List (Nat × Nat)) : Prop where
  pw : l.Pairwise (fun a b => a.2 < b.1)
  le : ∀ r ∈ l, r.1 ≤ r.2

theorem Sep.tail {r l} (h : Sep (r :: l)) : Sep l :=
  ⟨(List.pairwise_cons.mp h.pw).2, fun q hq => h.le q (by simp [hq])⟩

theorem Sep.cov_tail {r l} (h : Sep (r :: l)) (x : Nat) : Cov l x ↔ Cov (r :: l) x ∧ 2 * r.2 < x := by
  rw [Cov.cons]
  constructor
  · rintro ⟨q, hq, h1, h2⟩
    have := (List.pairwise_cons.mp h.pw).1 q hq
    exact ⟨.inr ⟨q, hq, h1, h2⟩, by omega⟩
  · rintro ⟨h1 | h1, h2⟩
    · omega
    · exact h1

theorem Sep.cov_ge {r l} (h : Sep (r :: l)) (x : Nat) (hx : Cov (r :: l) x) : 2 * r.1 ≤ x := by
  rw [Cov.cons] at hx
  rcases hx with h1 | ⟨q, hq, h1, h2⟩
  · exact h1.1
  · have := (List.pairwise_cons.mp h.pw).1 q hq
    have := h.le r (by simp)
    omega

theorem Sep.unique {l m} (hl : Sep l) (hm : Sep m) (h : ∀ x, Cov l x ↔ Cov m x) : l = m := by
  induction l generalizing m with
  | nil =>
    cases m with
    | nil => rfl
    | cons r m =>
      have : Cov [] (2 * r.1) := (h _).mpr (Cov.cons.mpr (.inl ⟨by omega, by have := hm.le r (by simp); omega⟩))
      simp [Cov] at this
  | cons r l ih =>
    cases m with
    | nil =>
      have : Cov [] (2 * r.1) := (h _).mp (Cov.cons.mpr (.inl ⟨by omega, by have := hl.le r (by simp); omega⟩))
      simp [Cov] at this
    | cons q m =>
      have hr := hl.le r (by simp)
      have hq := hm.le q (by simp)
      have e1 : r.1 = q.1 := by
        have h1 := hm.cov_ge _ ((h (2 * r.1)).mp (Cov.cons.mpr (.inl ⟨by omega, by omega⟩)))
        have h2 := hl.cov_ge _ ((h (2 * q.1)).mpr (Cov.cons.mpr (.inl ⟨by omega, by omega⟩)))
        omega
      have aux : ∀ {r q : Nat × Nat} {l m}, Sep (r :: l) → r.1 ≤ r.2 → (∀ x, Cov (r :: l) x ↔ Cov (q :: m) x) → r.1 = q.1 → q.2 ≤ r.2 := by
        intro r q l m hs hrr h e1
        apply Classical.byContradiction
        intro hlt
        have hc : Cov (q :: m) (2 * r.2 + 1) := Cov.cons.mpr (.inl ⟨by omega, by omega⟩)
        rw [← h, Cov.cons] at hc
        rcases hc with hc | ⟨p, hp, h1, h2⟩
        · omega
        · have := (List.pairwise_cons.mp hs.pw).1 p hp
          omega
      have e2 : r.2 = q.2 := by
        have h1 := aux hl hr h e1
        have h2 := aux hm hq (fun x => (h x).symm) e1.symm
        omega
      have hrq : r = q := Prod.ext e1 e2
      subst hrq
      rw [ih hl.tail hm.tail (fun x => by rw [hl.cov_tail, hm.cov_tail, h])]

theorem mergeLoop_spec (l : List (Nat × Nat)) (last : Nat × Nat) (hl : last.1 ≤ last.2)
    (hs : ∀ r ∈ l, last.1 ≤ r.1) (hp : l.Pairwise (fun a b => a.1 ≤ b.1)) (hw : ∀ r ∈ l, r.1 ≤ r.2) :
    (∀ x, Cov (mergeLoop last l) x ↔ Cov (last :: l) x) ∧ Sep (mergeLoop last l) ∧
    (∀ r ∈ mergeLoop last l, last.1 ≤ r.1) ∧
    (∀ r ∈ mergeLoop last l, (∃ q ∈ last :: l, r.1 = q.1) ∧ (∃ q ∈ last :: l, r.2 = q.2)) := by
  induction l generalizing last with
  | nil => exact ⟨fun _ => Iff.rfl, ⟨by simp [mergeLoop], by simpa [mergeLoop] using hl⟩, by simp [mergeLoop], by simp [mergeLoop]⟩
  | cons r rest ih =>
    rw [List.pairwise_cons] at hp
    have hr := hw r (by simp)
    have hlr := hs r (by simp)
    unfold mergeLoop
    split
    · rename_i hc
      obtain ⟨h1, h2, h3, h4⟩ := ih (last.1, max last.2 r.2) (by simp; omega)
        (fun q hq => by have := hp.1 q hq; simp at this ⊢; omega) hp.2 (fun q hq => hw q (by simp [hq]))
      refine ⟨?_, h2, h3, ?_⟩
      · intro x
        rw [h1, Cov.cons, Cov.cons, Cov.cons]
        constructor
        · rintro (h | h)
          · by_cases hx : x ≤ 2 * last.2
            · exact .inl ⟨h.1, hx⟩
            · exact .inr (.inl (by omega))
          · exact .inr (.inr h)
        · rintro (h | h | h)
          · exact .inl (by omega)
          · exact .inl (by omega)
          · exact .inr h
      · intro q hq
        obtain ⟨⟨a, ha, ha'⟩, ⟨b, hb, hb'⟩⟩ := h4 q hq
        refine ⟨?_, ?_⟩
        · rcases List.mem_cons.mp ha with rfl | ha
          · exact ⟨last, by simp, ha'⟩
          · exact ⟨a, by simp [ha], ha'⟩
        · rcases List.mem_cons.mp hb with rfl | hb
          · simp only at hb'
            by_cases hx : r.2 ≤ last.2
            · exact ⟨last, by simp, by omega⟩
            · exact ⟨r, by simp, by omega⟩
          · exact ⟨b, by simp [hb], hb'⟩
    · rename_i hc
      obtain ⟨h1, h2, h3, h4⟩ := ih r hr hp.1 hp.2 (fun q hq => hw q (by simp [hq]))
      refine ⟨?_, ⟨?_, ?_⟩, ?_, ?_⟩
      · intro x
        rw [Cov.cons, h1, Cov.cons (r := last)]
      · rw [List.pairwise_cons]
        exact ⟨fun q hq => by have := h3 q hq; omega, h2.pw⟩
      · intro q hq
        rcases List.mem_cons.mp hq with rfl | hq
        · exact hl
        · exact h2.le q hq
      · intro q hq
        rcases List.mem_cons.mp hq with rfl | hq
        · exact Nat.le_refl _
        · have := h3 q hq; omega
      · intro q hq
        rcases List.mem_cons.mp hq with rfl | hq
        · exact ⟨⟨q, by simp, rfl⟩, ⟨q, by simp, rfl⟩⟩
        · obtain ⟨⟨a, ha, ha'⟩, ⟨b, hb, hb'⟩⟩ := h4 q hq
          exact ⟨⟨a, List.mem_cons_of_mem _ ha, ha'⟩, ⟨b, List.mem_cons_of_mem _ hb, hb'⟩⟩

/-- `sort` is a sorting function for ranges by their start (any algorithm, stable or not). -/
def Sorts (sort : List (Nat × Nat) → List (Nat × Nat)) : Prop :=
  ∀ l, (sort l).Perm l ∧ (sort l).Pairwise (fun a b => a.1 ≤ b.1)

theorem sortByKey_sorts : Sorts (sortByKey Prod.fst) := fun l => ⟨sortByKey_perm _ l, sortByKey_sorted _ l⟩

theorem mergeSorted_spec (sort) (hsort : Sorts sort) (l : List (Nat × Nat)) (hw : ∀ r ∈ l, r.1 ≤ r.2) :
    (∀ x, Cov (mergeSorted (sort l)) x ↔ Cov l x) ∧ Sep (mergeSorted (sort l)) ∧
    (∀ r ∈ mergeSorted (sort l), (∃ q ∈ l, r.1 = q.1) ∧ (∃ q ∈ l, r.2 = q.2)) := by
  obtain ⟨hperm, hsorted⟩ := hsort l
  have hin : ∀ x, Cov (sort l) x ↔ Cov l x := by
    intro x; unfold Cov; simp only [hperm.mem_iff]
  cases he : sort l with
  | nil =>
    rw [he] at hin
    exact ⟨hin, ⟨by simp [mergeSorted], by simp [mergeSorted]⟩, by simp [mergeSorted]⟩
  | cons r rs =>
    rw [he] at hin hsorted hperm
    have hw' : ∀ q ∈ r :: rs, q.1 ≤ q.2 := fun q hq => hw q (hperm.mem_iff.mp hq)
    rw [List.pairwise_cons] at hsorted
    obtain ⟨h1, h2, h3, h4⟩ := mergeLoop_spec rs r (hw' r (by simp)) hsorted.1 hsorted.2 (fun q hq => hw' q (by simp [hq]))
    refine ⟨fun x => (h1 x).trans (hin x), h2, ?_⟩
    intro q hq
    obtain ⟨⟨a, ha, ha'⟩, ⟨b, hb, hb'⟩⟩ := h4 q hq
    exact ⟨⟨a, hperm.mem_iff.mp ha, ha'⟩, ⟨b, hperm.mem_iff.mp hb, hb'⟩⟩

/-! ### Absorbing singles -/

/-- Half-open ranges as produced from well-formed sequences. -/
def Good (r : Nat × Nat) : Prop := 1 ≤ r.1 ∧ r.2 ≤ u32Max ∧ (r.1 < r.2 ∨ (r.1 = u32Max ∧ r.2 = u32Max))

theorem Good.le {r} (h : Good r) : r.1 ≤ r.2 := by unfold Good at h; omega

def Ready (l : List (Nat × Nat)) (s : Nat) : Prop :=
  1 ≤ s ∧ (s < u32Max → Cov l (2 * s) ∧ Cov l (2 * s + 1)) ∧ Cov l (2 * s)

theorem absorb_step (l : List (Nat × Nat)) (hg : ∀ r ∈ l, Good r) (s : Nat) (hs : Ready l s) :
    (∀ r ∈ l.map (fun r => (absorb s r).1), Good r) ∧
    (∀ x, Cov (l.map fun r => (absorb s r).1) x ↔ Cov l x) ∧
    (s ≤ u32Max → l.any (fun r => (absorb s r).2) = true) := by
  have habs : ∀ r ∈ l, Good (absorb s r).1 ∧ (absorb s r).1.2 = r.2 ∧ (absorb s r).1.1 ≤ r.1 ∧
      (∀ x, 2 * (absorb s r).1.1 ≤ x → x < 2 * r.1 → Cov l x) := by
    intro r hr
    have hgr := hg r hr
    unfold absorb
    split_ifs with h1 h2 h3
    · unfold Good at *
      by_cases h2 : r.1 ≤ 1
      · have : r.1 = 1 := by omega
        refine ⟨by simp; omega, rfl, by simp; omega, by simp; omega⟩
      · have hs1 : s + 1 = r.1 := by omega
        refine ⟨by simp; omega, rfl, by simp; omega, ?_⟩
        intro x hx1 hx2
        simp at hx1
        have hlt : s < u32Max := by omega
        have := hs.2.1 hlt
        rcases (by omega : x = 2 * s ∨ x = 2 * s + 1) with rfl | rfl
        · exact this.1
        · exact this.2
    · subst h2; exact ⟨hgr, rfl, Nat.le_refl _, by simp; omega⟩
    · exact ⟨hgr, rfl, Nat.le_refl _, by simp; omega⟩
    · exact ⟨hgr, rfl, Nat.le_refl _, by simp; omega⟩
  refine ⟨?_, ?_, ?_⟩
  · intro q hq
    obtain ⟨r, hr, rfl⟩ := List.mem_map.mp hq
    exact (habs r hr).1
  · intro x
    constructor
    · rintro ⟨q, hq, h1, h2⟩
      obtain ⟨r, hr, rfl⟩ := List.mem_map.mp hq
      obtain ⟨_, e2, e3, e4⟩ := habs r hr
      by_cases hx : x < 2 * r.1
      · exact e4 x h1 hx
      · exact ⟨r, hr, by omega, by omega⟩
    · rintro ⟨r, hr, h1, h2⟩
      obtain ⟨_, e2, e3, e4⟩ := habs r hr
      exact ⟨_, List.mem_map.mpr ⟨r, hr, rfl⟩, by omega, by omega⟩
  · intro hle
    rw [List.any_eq_true]
    by_cases hlt : s < u32Max
    · obtain ⟨r, hr, h1, h2⟩ := (hs.2.1 hlt).2
      refine ⟨r, hr, ?_⟩
      unfold absorb
      split_ifs with h1 h2 h3 <;> first | rfl | (exfalso; omega)
    · obtain ⟨r, hr, h1, h2⟩ := hs.2.2
      refine ⟨r, hr, ?_⟩
      have := (hg r hr).2.1
      unfold absorb
      split_ifs with h1 h2 h3 <;> first | rfl | (exfalso; omega)

theorem absorbAll_spec (order : List Nat) (l : List (Nat × Nat)) (S : List Nat) (hg : ∀ r ∈ l, Good r)
    (hr : ∀ s ∈ order, Ready l s ∧ s ≤ u32Max) :
    let st := absorbAll order (l, S)
    (∀ r ∈ st.1, Good r) ∧ (∀ x, Cov st.1 x ↔ Cov l x) ∧ (∀ s ∈ st.2, s ∈ S ∧ s ∉ order) := by
  induction order generalizing l S with
  | nil => exact ⟨hg, fun _ => Iff.rfl, fun s hs => ⟨hs, by simp⟩⟩
  | cons s order ih =>
    have hs := hr s (by simp)
    obtain ⟨a1, a2, a3⟩ := absorb_step l hg s hs.1
    have a3 := a3 hs.2
    obtain ⟨b1, b2, b3⟩ := ih (l.map fun r => (absorb s r).1) (S.filter (· ≠ s)) a1 (by
      intro t ht
      obtain ⟨⟨c1, c2, c3⟩, c4⟩ := hr t (by simp [ht])
      exact ⟨⟨c1, fun h => ⟨(a2 _).mpr (c2 h).1, (a2 _).mpr (c2 h).2⟩, (a2 _).mpr c3⟩, c4⟩)
    have e : absorbAll (s :: order) (l, S) = absorbAll order (l.map fun r => (absorb s r).1, S.filter (· ≠ s)) := by
      simp only [absorbAll, List.foldl_cons]
      rw [if_pos a3]
    rw [e]
    refine ⟨b1, fun x => (b2 x).trans (a2 x), ?_⟩
    intro t ht
    obtain ⟨c1, c2⟩ := b3 t ht
    simp at c1
    exact ⟨c1.1, by simp [c2, c1.2]⟩

/-! ### Normalization -/

theorem good_toHalfOpen (q : Sequence) (hw : q.wf = true) : Good q.normalize.toHalfOpen := by
  have nz : ∀ a : SeqOrUid, a.wf = true → 1 ≤ a.toNZ ∧ a.toNZ ≤ u32Max := by
    intro a ha
    cases a with
    | value n => simpa [SeqOrUid.wf, isNonZeroU32, SeqOrUid.toNZ] using ha
    | asterisk => simp [SeqOrUid.toNZ, u32Max]
  have hsingle : ∀ a : SeqOrUid, a.wf = true → Good (Sequence.single a).toHalfOpen := by
    intro a ha
    have := nz a ha
    simp only [Sequence.toHalfOpen, Good, satSucc]
    split <;> omega
  have hrange : ∀ a b : SeqOrUid, a.wf = true → b.wf = true → a ≠ b → a.gt b = false → Good (Sequence.range a b).toHalfOpen := by
    intro a b ha hb hne hgt
    have h1 := nz a ha
    have h2 := nz b hb
    have h3 : a.toNZ ≤ b.toNZ := by
      cases a <;> cases b <;> simp_all [SeqOrUid.gt, SeqOrUid.toNZ]
    have h4 : a.toNZ < b.toNZ ∨ b.toNZ = u32Max := by
      cases a <;> cases b <;> simp_all [SeqOrUid.gt, SeqOrUid.toNZ]
      omega
    simp only [Sequence.toHalfOpen, Good, satSucc]
    split <;> omega
  cases q with
  | single a => exact hsingle a hw
  | range a b =>
    simp [Sequence.wf] at hw
    simp only [Sequence.normalize]
    split_ifs with h1 h2
    · exact hsingle a hw.1
    · refine hrange b a hw.2 hw.1 (Ne.symm h1) ?_
      cases a <;> cases b <;> simp_all [SeqOrUid.gt]
      omega
    · exact hrange a b hw.1 hw.2 h1 (by simpa using h2)

theorem mem_singlesOf (l : List Sequence) (s : Nat) : s ∈ singlesOf l ↔ ∃ a, Sequence.single a ∈ l ∧ a.toNZ = s := by
  induction l with
  | nil => simp [singlesOf]
  | cons q l ih =>
    cases q with
    | single a =>
      unfold singlesOf
      split_ifs with h
      · rw [ih]
        constructor
        · rintro ⟨b, hb, rfl⟩; exact ⟨b, by simp [hb], rfl⟩
        · rintro ⟨b, hb, rfl⟩
          rcases List.mem_cons.mp hb with hb | hb
          · cases hb; exact ih.mp h |> fun ⟨c, hc, hc'⟩ => ⟨c, hc, hc'⟩
          · exact ⟨b, hb, rfl⟩
      · simp only [List.mem_cons, ih]
        constructor
        · rintro (rfl | ⟨b, hb, rfl⟩)
          · exact ⟨a, by simp, rfl⟩
          · exact ⟨b, by simp [hb], rfl⟩
        · rintro ⟨b, hb, rfl⟩
          rcases hb with hb | hb
          · cases hb; exact .inl rfl
          · exact .inr ⟨b, hb, rfl⟩
    | range a b =>
      simp only [singlesOf, ih]
      constructor
      · rintro ⟨b, hb, rfl⟩; exact ⟨b, by simp [hb], rfl⟩
      · rintro ⟨c, hc, rfl⟩
        rcases List.mem_cons.mp hc with hc | hc
        · cases hc
        · exact ⟨c, hc, rfl⟩

/-- The canonical half-open ranges of a sequence set. -/
def canon (s : SequenceSet) : List (Nat × Nat) :=
  mergeSorted (sortByKey Prod.fst ((s.map Sequence.normalize).map Sequence.toHalfOpen))

theorem ofNZ_toNZ (n : Nat) : (SeqOrUid.ofNZ n).toNZ = n := by
  unfold SeqOrUid.ofNZ
  split
  · simp [SeqOrUid.toNZ, *]
  · rfl

theorem key_ofHalfOpen (r : Nat × Nat) : (ofHalfOpen r).key = r.1 := by
  unfold ofHalfOpen
  split_ifs <;> simp [Sequence.key, ofNZ_toNZ]

/-- An iteration order of the hash set of singles: the same elements in some order. -/
def IsOrder (order : List Nat) (s : SequenceSet) : Prop := order.Perm (singlesOf (s.map Sequence.normalize))

theorem halfOpen_good (s : SequenceSet) (hw : s.wf = true) : ∀ r ∈ (s.map Sequence.normalize).map Sequence.toHalfOpen, Good r := by
  intro r hr
  simp at hr
  obtain ⟨q, hq, rfl⟩ := hr
  apply good_toHalfOpen
  simp [SequenceSet.wf] at hw
  exact hw.2 q hq

theorem normalizeWith_eq (order : List Nat) (sort) (s : SequenceSet) (hw : s.wf = true) (ho : IsOrder order s)
    (hsort : Sorts sort) : s.normalizeWith order sort = (canon s).map ofHalfOpen := by
  have hg := halfOpen_good s hw
  have hready : ∀ t ∈ order, Ready ((s.map Sequence.normalize).map Sequence.toHalfOpen) t ∧ t ≤ u32Max := by
    intro t ht
    obtain ⟨a, ha, rfl⟩ := (mem_singlesOf _ _).mp (ho.mem_iff.mp ht)
    have hmem : (a.toNZ, satSucc a.toNZ) ∈ (s.map Sequence.normalize).map Sequence.toHalfOpen :=
      List.mem_map.mpr ⟨_, ha, rfl⟩
    have hgo := hg _ hmem
    simp only [Good] at hgo
    refine ⟨⟨hgo.1, ?_, ⟨_, hmem, by simp, by simp; omega⟩⟩, by omega⟩
    intro hlt
    have e : satSucc a.toNZ = a.toNZ + 1 := by simp [satSucc, hlt]
    exact ⟨⟨_, hmem, by simp, by simp; omega⟩, ⟨_, hmem, by simp, by simp; omega⟩⟩
  obtain ⟨h1, h2, h3⟩ := absorbAll_spec order _ (singlesOf (s.map Sequence.normalize)) hg hready
  have hempty : (absorbAll order ((s.map Sequence.normalize).map Sequence.toHalfOpen, singlesOf (s.map Sequence.normalize))).2 = [] := by
    apply List.eq_nil_iff_forall_not_mem.mpr
    intro t ht
    have := h3 t ht
    exact this.2 (ho.mem_iff.mpr this.1)
  obtain ⟨m1, m2, _⟩ := mergeSorted_spec sort hsort _ (fun r hr => (h1 r hr).le)
  obtain ⟨c1, c2, _⟩ := mergeSorted_spec _ sortByKey_sorts _ (fun r hr => (hg r hr).le)
  have heq := m2.unique c2 (fun x => by rw [m1, h2, c1])
  unfold SequenceSet.normalizeWith
  simp only [hempty]
  rw [heq]
  simp only [List.filter_nil, List.map_nil, List.append_nil]
  show sortByKey Sequence.key ((canon s).map ofHalfOpen) = _
  apply sortByKey_of_sorted
  rw [List.pairwise_map]
  refine List.Pairwise.imp_of_mem ?_ c2.pw
  intro a b ha hb hab
  rw [key_ofHalfOpen, key_ofHalfOpen]
  have := c2.le a ha
  omega

theorem normalize_eq (s : SequenceSet) (hw : s.wf = true) : s.normalize = (canon s).map ofHalfOpen :=
  normalizeWith_eq _ _ s hw (List.Perm.refl _) sortByKey_sorts

theorem canon_spec (s : SequenceSet) (hw : s.wf = true) :
    Sep (canon s) ∧ (∀ r ∈ canon s, Good r) ∧
    (∀ x, Cov (canon s) x ↔ Cov ((s.map Sequence.normalize).map Sequence.toHalfOpen) x) ∧
    (∀ r ∈ canon s, (∃ q ∈ s, r.1 = q.normalize.toHalfOpen.1) ∧ (∃ q ∈ s, r.2 = q.normalize.toHalfOpen.2)) := by
  have hg := halfOpen_good s hw
  obtain ⟨c1, c2, c3⟩ := mergeSorted_spec _ sortByKey_sorts _ (fun r hr => (hg r hr).le)
  have c3' : ∀ r ∈ canon s, (∃ q ∈ s, r.1 = q.normalize.toHalfOpen.1) ∧ (∃ q ∈ s, r.2 = q.normalize.toHalfOpen.2) := by
    intro r hr
    obtain ⟨⟨a, ha, ha'⟩, ⟨b, hb, hb'⟩⟩ := c3 r hr
    simp at ha hb
    obtain ⟨q, hq, rfl⟩ := ha
    obtain ⟨p, hp, rfl⟩ := hb
    exact ⟨⟨q, hq, ha'⟩, ⟨p, hp, hb'⟩⟩
  refine ⟨c2, ?_, c1, c3'⟩
  intro r hr
  -- the start point or the odd point after it is covered by a good range
  have hle := c2.le r hr
  obtain ⟨⟨q, hq, e1⟩, ⟨p, hp, e2⟩⟩ := c3' r hr
  have gq := hg _ (List.mem_map.mpr ⟨_, List.mem_map.mpr ⟨q, hq, rfl⟩, rfl⟩)
  have gp := hg _ (List.mem_map.mpr ⟨_, List.mem_map.mpr ⟨p, hp, rfl⟩, rfl⟩)
  by_cases hlt : r.1 < r.2
  · unfold Good at *; omega
  · -- r.1 = r.2: then the range q with this start is degenerate
    have heq : r.1 = r.2 := by omega
    by_cases hq2 : q.normalize.toHalfOpen.1 < q.normalize.toHalfOpen.2
    · -- contradiction: the odd point after r.1 is covered by the list but not by canon
      have hcov : Cov (canon s) (2 * r.1 + 1) :=
        (c1 _).mpr ⟨_, List.mem_map.mpr ⟨_, List.mem_map.mpr ⟨q, hq, rfl⟩, rfl⟩, by omega, by omega⟩
      have hcov0 : Cov (canon s) (2 * r.1) := ⟨r, hr, by omega, by omega⟩
      obtain ⟨t, ht, t1, t2⟩ := hcov
      have htr : t ≠ r := by rintro rfl; omega
      have hboth : r.2 < t.1 ∨ t.2 < r.1 := by
        have hpw := c2.pw
        rcases List.append_of_mem hr with ⟨u, v, huv⟩
        have huv' : canon s = u ++ r :: v := huv
        have ht' := ht
        rw [huv'] at ht'
        rw [show mergeSorted (sortByKey Prod.fst ((s.map Sequence.normalize).map Sequence.toHalfOpen)) = u ++ r :: v from huv] at hpw
        rw [List.pairwise_append] at hpw
        simp at ht'
        rcases ht' with h | h | h
        · exact .inr (hpw.2.2 t h r (by simp))
        · exact absurd h htr
        · exact .inl ((List.pairwise_cons.mp hpw.2.1).1 t h)
      omega
    · unfold Good at *
      omega

end Imap
