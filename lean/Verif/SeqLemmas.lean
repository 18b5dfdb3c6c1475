import Verif.Sequence
import Mathlib.Tactic.SplitIfs
namespace Imap

/-! ### Iterators -/

def expandPair (r : Nat × Nat) : List Nat :=
  if r.1 ≤ r.2 then List.range' r.1 (r.2 - r.1 + 1) else (List.range' r.2 (r.1 - r.2 + 1)).reverse

def Sorting.toList : Sorting → List Nat
  | .ascending none => []
  | .ascending (some (a, b)) => if a ≤ b then List.range' a (b - a + 1) else []
  | .descending none => []
  | .descending (some (a, b)) => if a ≤ b then (List.range' a (b - a + 1)).reverse else []

theorem Sorting.next_spec (s : Sorting) :
    match s.next with
    | none => s.toList = []
    | some (n, s') => s.toList = n :: s'.toList := by
  match s with
  | .ascending none => simp [Sorting.next, Sorting.toList]
  | .descending none => simp [Sorting.next, Sorting.toList]
  | .ascending (some (a, b)) =>
    by_cases h : a < b
    · have e : b - a + 1 = (b - (a + 1) + 1) + 1 := by omega
      simp only [Sorting.next, h, if_true, Sorting.toList, show a ≤ b by omega, show a + 1 ≤ b by omega]
      rw [e, List.range'_succ]
    · by_cases h' : a = b
      · subst h'; simp [Sorting.next, Sorting.toList]
      · simp [Sorting.next, Sorting.toList, h, h']; omega
  | .descending (some (a, b)) =>
    by_cases h : a < b
    · have e : b - a + 1 = (b - 1 - a + 1) + 1 := by omega
      simp only [Sorting.next, h, if_true, Sorting.toList, show a ≤ b by omega, show a ≤ b - 1 by omega]
      rw [e, List.range'_concat]
      simp; omega
    · by_cases h' : a = b
      · subst h'; simp [Sorting.next, Sorting.toList]
      · simp [Sorting.next, Sorting.toList, h, h']; omega

def SeqIter.toList (it : SeqIter) : List Nat :=
  (match it.active with | none => [] | some s => s.toList) ++ it.ranges.flatMap expandPair

theorem expandPair_ne_nil (r : Nat × Nat) : expandPair r ≠ [] := by
  unfold expandPair
  split
  · simp
  · simp

theorem SeqIter.go_spec (rs : List (Nat × Nat)) :
    match SeqIter.next.go rs with
    | none => rs.flatMap expandPair = []
    | some (n, it) => rs.flatMap expandPair = n :: it.toList := by
  cases rs with
  | nil => simp [SeqIter.next.go]
  | cons r rs =>
    obtain ⟨a, b⟩ := r
    have hx : expandPair (a, b) = (if a ≤ b then Sorting.ascending (some (a, b)) else Sorting.descending (some (b, a))).toList := by
      unfold expandPair
      split <;> simp_all [Sorting.toList]
      omega
    have hn := Sorting.next_spec (if a ≤ b then Sorting.ascending (some (a, b)) else Sorting.descending (some (b, a)))
    have hne := expandPair_ne_nil (a, b)
    rw [hx] at hne
    simp only [SeqIter.next.go, List.flatMap_cons, hx]
    split at hn
    · exact absurd hn hne
    · rename_i n s' he
      rw [he]
      simp [hn, SeqIter.toList]

theorem SeqIter.next_spec (it : SeqIter) :
    match it.next with
    | none => it.toList = []
    | some (n, it') => it.toList = n :: it'.toList := by
  have hg := SeqIter.go_spec it.ranges
  unfold SeqIter.next
  cases ha : it.active with
  | none => simpa [SeqIter.toList, ha] using hg
  | some s =>
    have hn := Sorting.next_spec s
    simp only [Option.bind_some]
    split at hn
    · rename_i he
      rw [he]
      simpa [SeqIter.toList, ha, hn] using hg
    · rename_i n s' he
      rw [he]
      simp [SeqIter.toList, ha, hn]

theorem SeqIter.take_eq (fuel : Nat) (it : SeqIter) : it.take fuel = it.toList.take fuel := by
  induction fuel generalizing it with
  | zero => simp [SeqIter.take]
  | succ fuel ih =>
    have := it.next_spec
    unfold SeqIter.take
    split at this
    · rename_i he; simp [he, this]
    · rename_i n it' he; simp [he, this, ih]

/-! ### Sorting -/

theorem insertPair_perm (x : Nat × Nat) (l : List (Nat × Nat)) : (insertPair x l).Perm (x :: l) := by
  induction l with
  | nil => exact .refl _
  | cons y ys ih =>
    unfold insertPair
    split
    · exact .refl _
    · exact (ih.cons y).trans (.swap x y ys)

theorem sortPairs_perm (l : List (Nat × Nat)) : (sortPairs l).Perm l := by
  induction l with
  | nil => exact .refl _
  | cons x xs ih => exact (insertPair_perm _ _).trans (ih.cons x)

theorem insertPair_sorted (x : Nat × Nat) (l : List (Nat × Nat)) (h : l.Pairwise (fun a b => a.1 ≤ b.1)) :
    (insertPair x l).Pairwise (fun a b => a.1 ≤ b.1) := by
  induction l with
  | nil => simp [insertPair]
  | cons y ys ih =>
    unfold insertPair
    rw [List.pairwise_cons] at h
    split
    · rename_i hc
      rw [List.pairwise_cons, List.pairwise_cons]
      refine ⟨?_, h.1, h.2⟩
      intro z hz
      rcases List.mem_cons.mp hz with rfl | hz
      · omega
      · have := h.1 z hz; omega
    · rename_i hc
      rw [List.pairwise_cons]
      refine ⟨?_, ih h.2⟩
      intro z hz
      rcases List.mem_cons.mp ((insertPair_perm x ys).mem_iff.mp hz) with rfl | hz
      · omega
      · exact h.1 z hz

theorem sortPairs_sorted (l : List (Nat × Nat)) : (sortPairs l).Pairwise (fun a b => a.1 ≤ b.1) := by
  induction l with
  | nil => simp [sortPairs]
  | cons x xs ih => exact insertPair_sorted _ _ ih

/-! ### cleanup -/

/-- n lies in one of the inclusive ranges. -/
def InPairs (l : List (Nat × Nat)) (n : Nat) : Prop := ∃ r ∈ l, r.1 ≤ n ∧ n ≤ r.2

theorem cleanupLoop_spec (l : List (Nat × Nat)) (last : Nat × Nat) (hl : last.1 ≤ last.2) (hm : last.2 ≤ u32Max)
    (hs : ∀ r ∈ l, last.1 ≤ r.1) (hp : l.Pairwise (fun a b => a.1 ≤ b.1)) (hw : ∀ r ∈ l, r.1 ≤ r.2 ∧ r.2 ≤ u32Max) :
    (∀ n, InPairs (cleanupLoop last l) n ↔ InPairs (last :: l) n) ∧
    (cleanupLoop last l).Pairwise (fun a b => a.2 + 1 < b.1) ∧
    (∀ r ∈ cleanupLoop last l, r.1 ≤ r.2 ∧ last.1 ≤ r.1) := by
  induction l generalizing last with
  | nil => simp [cleanupLoop, hl]
  | cons r rest ih =>
    obtain ⟨x, y⟩ := r
    rw [List.pairwise_cons] at hp
    have hxy := hw (x, y) (by simp)
    have hlx := hs (x, y) (by simp)
    simp only at hxy hlx
    unfold cleanupLoop
    split
    · rename_i hc
      have hc2 : x ≤ last.2 + 1 := by have := hc.2; unfold satSucc at this; split at this <;> omega
      obtain ⟨h1, h2, h3⟩ := ih (last.1, max last.2 y) (by simp; omega) (by simp; omega)
        (fun r hr => by have := hp.1 r hr; simp at this ⊢; omega) hp.2 (fun r hr => hw r (by simp [hr]))
      refine ⟨?_, h2, h3⟩
      intro n
      rw [h1]
      simp only [InPairs, List.mem_cons, exists_eq_or_imp]
      constructor
      · rintro (h | h)
        · by_cases hn : n ≤ last.2
          · exact .inl ⟨h.1, hn⟩
          · exact .inr (.inl (by omega))
        · exact .inr (.inr h)
      · rintro (h | h | h)
        · exact .inl (by omega)
        · exact .inl (by omega)
        · exact .inr h
    · rename_i hc
      have hc2 : last.2 + 1 < x := by
        have : ¬ x ≤ satSucc last.2 := fun h => hc ⟨hlx, h⟩
        unfold satSucc at this; split at this <;> omega
      obtain ⟨h1, h2, h3⟩ := ih (x, y) hxy.1 hxy.2 hp.1 hp.2 (fun r hr => hw r (by simp [hr]))
      refine ⟨?_, ?_, ?_⟩
      · intro n
        have := h1 n
        simp only [InPairs, List.mem_cons, exists_eq_or_imp] at this ⊢
        rw [this]
      · rw [List.pairwise_cons]
        refine ⟨?_, h2⟩
        intro r hr
        have := h3 r hr
        simp at this
        omega
      · intro r hr
        rcases List.mem_cons.mp hr with rfl | hr
        · exact ⟨hl, Nat.le_refl _⟩
        · have := h3 r hr; simp at this; omega

theorem cleanup_spec (l : List (Nat × Nat)) (hw : ∀ r ∈ l, r.1 ≤ r.2 ∧ r.2 ≤ u32Max) :
    (∀ n, InPairs (cleanup l) n ↔ InPairs l n) ∧ (cleanup l).Pairwise (fun a b => a.2 + 1 < b.1) ∧
    (∀ r ∈ cleanup l, r.1 ≤ r.2) := by
  have hperm := sortPairs_perm l
  have hsorted := sortPairs_sorted l
  have hin : ∀ n, InPairs (sortPairs l) n ↔ InPairs l n := by
    intro n; unfold InPairs; simp only [hperm.mem_iff]
  unfold cleanup
  split
  · rename_i he
    rw [he] at hin
    exact ⟨hin, by simp, by simp⟩
  · rename_i r rs he
    rw [he] at hin hsorted hperm
    have hw' : ∀ q ∈ r :: rs, q.1 ≤ q.2 ∧ q.2 ≤ u32Max := fun q hq => hw q (hperm.mem_iff.mp hq)
    rw [List.pairwise_cons] at hsorted
    have hr := hw' r (by simp)
    obtain ⟨h1, h2, h3⟩ := cleanupLoop_spec rs r hr.1 hr.2 hsorted.1 hsorted.2 (fun q hq => hw' q (by simp [hq]))
    exact ⟨fun n => (h1 n).trans (hin n), h2, fun q hq => (h3 q hq).1⟩

theorem flatMap_expand_sorted (l : List (Nat × Nat)) (h : l.Pairwise (fun a b => a.2 + 1 < b.1)) (hw : ∀ r ∈ l, r.1 ≤ r.2) :
    (l.flatMap expandPair).Pairwise (· < ·) ∧ ∀ n, n ∈ l.flatMap expandPair ↔ InPairs l n := by
  have hmem : ∀ r : Nat × Nat, r.1 ≤ r.2 → ∀ n, n ∈ expandPair r ↔ r.1 ≤ n ∧ n ≤ r.2 := by
    intro r hr n
    simp [expandPair, hr, List.mem_range'_1]; omega
  have hall : ∀ n, n ∈ l.flatMap expandPair ↔ InPairs l n := by
    intro n
    simp only [List.mem_flatMap, InPairs]
    constructor
    · rintro ⟨r, hr, hn⟩; exact ⟨r, hr, (hmem r (hw r hr) n).mp hn⟩
    · rintro ⟨r, hr, hn⟩; exact ⟨r, hr, (hmem r (hw r hr) n).mpr hn⟩
  refine ⟨?_, hall⟩
  induction l with
  | nil => simp
  | cons r rs ih =>
    rw [List.pairwise_cons] at h
    rw [List.flatMap_cons, List.pairwise_append]
    have hr := hw r (by simp)
    have hsub := ih h.2 (fun q hq => hw q (by simp [hq]))
    have hall' : ∀ n, n ∈ rs.flatMap expandPair → ∃ q ∈ rs, q.1 ≤ n := by
      intro n hn
      obtain ⟨q, hq, hqn⟩ := List.mem_flatMap.mp hn
      exact ⟨q, hq, ((hmem q (hw q (by simp [hq])) n).mp hqn).1⟩
    refine ⟨?_, hsub ?_, ?_⟩
    · simp only [expandPair, hr, if_true]
      exact List.pairwise_lt_range'
    · intro n
      simp only [List.mem_flatMap, InPairs]
      constructor
      · rintro ⟨r, hr, hn⟩; exact ⟨r, hr, (hmem r (hw r (by simp [hr])) n).mp hn⟩
      · rintro ⟨r, hr, hn⟩; exact ⟨r, hr, (hmem r (hw r (by simp [hr])) n).mpr hn⟩
    · intro a ha b hb
      obtain ⟨q, hq, hqb⟩ := hall' b hb
      have := h.1 q hq
      have := (hmem r hr a).mp ha
      omega

end Imap
