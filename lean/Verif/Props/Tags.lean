import Verif.TagGen
import Verif.WellFormedLemmas
import Mathlib.Tactic.Ring
/-
C30: generated tags.
-/
set_option maxRecDepth 10000

namespace Imap

open Spec

/-- How often `new` is called. -/
def news (cs : List TagCall) : Nat := cs.countP fun c => match c with | .new => true | _ => false

/-- How often `generate` of the `i`-th generator is called. -/
def generates (i : Nat) (cs : List TagCall) : Nat := cs.countP fun c => match c with | .generate j _ => j == i | _ => false

/-- ASCII letters and digits. -/
def Alphanumeric (b : UInt8) : Prop := (48 ≤ b ∧ b ≤ 57) ∨ (65 ≤ b ∧ b ≤ 90) ∨ (97 ≤ b ∧ b ≤ 122)

/-- The random characters are letters and digits. -/
def TokensOk (cs : List TagCall) : Prop := ∀ i token, .generate i (some token) ∈ cs → ∀ b ∈ token, Alphanumeric b

/-- The tags with the numbers `g` and `c`. -/
def TagOf (g c : Nat) (t : Bytes) : Prop :=
  ∃ rest, t = showNat g ++ b!"." ++ showNat c ++ rest ∧ (rest = [] ∨ ∃ x, rest = b!"." ++ x)

theorem digits_prefix {a a' x x' : Bytes} (ha : a.all isDigit = true) (ha' : a'.all isDigit = true)
    (hx : ∀ b ∈ x.head?, isDigit b = false) (hx' : ∀ b ∈ x'.head?, isDigit b = false) (h : a ++ x = a' ++ x') : a = a' ∧ x = x' := by
  induction a generalizing a' with
  | nil =>
    cases a' with
    | nil => exact ⟨rfl, h⟩
    | cons d a' =>
      simp only [List.nil_append, List.cons_append] at h
      simp only [h, List.head?_cons, Option.mem_def, Option.some.injEq, forall_eq'] at hx
      simp [hx] at ha'
  | cons d a ih =>
    cases a' with
    | nil =>
      simp only [List.nil_append, List.cons_append] at h
      simp only [← h, List.head?_cons, Option.mem_def, Option.some.injEq, forall_eq'] at hx'
      simp [hx'] at ha
    | cons d' a' =>
      simp only [List.cons_append, List.cons.injEq, List.all_cons, Bool.and_eq_true] at h ha ha'
      obtain ⟨h1, h2⟩ := ih ha.2 ha'.2 h.2
      exact ⟨by rw [h.1, h1], h2⟩

theorem TagOf.inj {g c g' c' : Nat} {t : Bytes} (h : TagOf g c t) (h' : TagOf g' c' t) : g = g' ∧ c = c' := by
  obtain ⟨r, rfl, hr⟩ := h
  obtain ⟨r', e, hr'⟩ := h'
  have dot : ∀ x : Bytes, ∀ b ∈ (b!"." ++ x).head?, isDigit b = false := by
    intro x b hb
    simp only [List.cons_append, List.nil_append, List.head?_cons, Option.mem_def, Option.some.injEq] at hb
    subst hb
    decide
  have rest : ∀ r : Bytes, (r = [] ∨ ∃ x, r = b!"." ++ x) → ∀ b ∈ r.head?, isDigit b = false := by
    rintro r (rfl | ⟨x, rfl⟩)
    · simp
    · exact dot x
  simp only [List.append_assoc] at e
  obtain ⟨e1, e2⟩ := digits_prefix (showNat_digits g) (showNat_digits g') (dot _) (dot _) e
  simp only [List.cons_append, List.nil_append, List.cons.injEq, true_and] at e2
  obtain ⟨e3, -⟩ := digits_prefix (showNat_digits c) (showNat_digits c') (rest r hr) (rest r' hr') e2
  refine ⟨?_, ?_⟩
  · rw [← decVal_showNat g, e1, decVal_showNat]
  · rw [← decVal_showNat c, e3, decVal_showNat]

theorem tagOf_generate (g : TagGenerator) (token : Option Bytes) : TagOf g.global g.counter (g.generate token).1 := by
  cases token with
  | none => exact ⟨[], by simp [TagGenerator.generate], .inl rfl⟩
  | some t => exact ⟨b!"." ++ t, by simp [TagGenerator.generate], .inr ⟨t, rfl⟩⟩

/-- The generators so far, where the `i`-th one was called `k i` times. -/
structure Reached (M : Nat) (s : Process) (k : Nat → Nat) : Prop where
  count : s.count = s.generators.length % M
  get : ∀ i g, s.generators[i]? = some g → g = (⟨i, k i % 2 ^ 64⟩ : TagGenerator)

theorem run_spec (M : Nat) (cs : List TagCall) : ∀ (s : Process) (k : Nat → Nat), Reached M s k →
    s.generators.length + news cs ≤ M → (∀ i, s.generators.length ≤ i → k i = 0) → (∀ i, k i + generates i cs ≤ 2 ^ 64) →
    (s.run M cs).Nodup ∧ ∀ t ∈ s.run M cs, ∃ g c, TagOf g c t ∧ k g ≤ c := by
  induction cs with
  | nil => intro s k _ _ _ _; simp [Process.run]
  | cons x cs ih =>
    intro s k hr hn hz hg
    cases x with
    | new =>
      have hn' : s.generators.length < M := by
        have : news (.new :: cs) = news cs + 1 := by simp [news]
        omega
      have := ih (s.call M .new).2 k ?_ ?_ ?_ ?_
      · simpa [Process.run, Process.call] using this
      · refine ⟨?_, ?_⟩
        · simp [Process.call, hr.count]
        · intro i g hi
          simp only [Process.call] at hi
          rw [List.getElem?_append] at hi
          split at hi
          · exact hr.get i g hi
          · rename_i hlt
            have : i = s.generators.length := by
              by_contra hne
              rw [List.getElem?_eq_none (by simp; omega)] at hi
              cases hi
            subst this
            simp only [Nat.sub_self, List.getElem?_cons_zero, Option.some.injEq] at hi
            rw [← hi, hz _ (Nat.le_refl _), hr.count, Nat.mod_eq_of_lt hn']
            rfl
      · have : news (.new :: cs) = news cs + 1 := by simp [news]
        simp only [Process.call, List.length_append, List.length_singleton]
        omega
      · intro i hi
        simp only [Process.call, List.length_append, List.length_singleton] at hi
        exact hz i (by omega)
      · intro i
        have := hg i
        simpa [generates] using this
    | generate j token =>
      have hn' : news (.generate j token :: cs) = news cs := by simp [news]
      have hgi : ∀ i, generates i (.generate j token :: cs) = generates i cs + if j = i then 1 else 0 := by
        intro i
        simp [generates, List.countP_cons]
      cases hj : s.generators[j]? with
      | none =>
        have := ih s k hr (by omega) hz (fun i => by have := hg i; rw [hgi] at this; omega)
        simpa [Process.run, Process.call, hj] using this
      | some g =>
        have hge := hr.get j g hj
        have hlt : j < s.generators.length := by
          by_contra h
          rw [List.getElem?_eq_none (by omega)] at hj
          cases hj
        have hk : k j < 2 ^ 64 := by
          have := hg j
          rw [hgi, if_pos rfl] at this
          omega
        let k' : Nat → Nat := fun i => if j = i then k i + 1 else k i
        have := ih { s with generators := s.generators.set j (g.generate token).2 } k' ?_ ?_ ?_ ?_
        · obtain ⟨h1, h2⟩ := this
          have e : s.run M (.generate j token :: cs) =
              (g.generate token).1 :: { s with generators := s.generators.set j (g.generate token).2 }.run M cs := by
            simp [Process.run, Process.call, hj]
          have ht : TagOf j (k j) (g.generate token).1 := by
            have := tagOf_generate g token
            have e1 : g.global = j := by rw [hge]
            have e2 : g.counter = k j := by rw [hge]; exact Nat.mod_eq_of_lt hk
            rwa [e1, e2] at this
          rw [e]
          refine ⟨List.nodup_cons.2 ⟨fun hm => ?_, h1⟩, ?_⟩
          · obtain ⟨g', c', h3, h4⟩ := h2 _ hm
            obtain ⟨rfl, rfl⟩ := ht.inj h3
            simp only [k', if_true] at h4
            omega
          · intro t hm
            rcases List.mem_cons.1 hm with rfl | hm
            · exact ⟨j, k j, ht, Nat.le_refl _⟩
            · obtain ⟨g', c', h3, h4⟩ := h2 t hm
              refine ⟨g', c', h3, ?_⟩
              simp only [k'] at h4
              split at h4 <;> omega
        · refine ⟨by simp [hr.count], ?_⟩
          intro i g' hi
          simp only [List.getElem?_set] at hi
          by_cases hij : j = i
          · subst hij
            simp only [if_true, hlt, Option.some.injEq] at hi
            rw [← hi, hge]
            simp [TagGenerator.generate, k']
          · rw [if_neg hij] at hi
            simpa [k', hij] using hr.get i g' hi
        · simpa [hn'] using hn
        · intro i hi
          simp only [List.length_set] at hi
          have : j ≠ i := by omega
          simpa [k', this] using hz i hi
        · intro i
          have := hg i
          rw [hgi] at this
          simp only [k']
          split <;> rename_i h <;> simp [h] at this <;> omega

/-- C30: whatever the interleaving of the calls of any number of generators, no tag is returned twice, unless the counters wrap around:
`new` is called more than `M` times, where `M` is the number of values of `usize`, or `generate` of the same generator more than 2^64
times. -/
theorem C30_unique (M : Nat) (calls : List TagCall) (hn : news calls ≤ M) (hg : ∀ i, generates i calls ≤ 2 ^ 64) :
    (Process.init.run M calls).Nodup := by
  refine (run_spec M calls Process.init (fun _ => 0) ⟨?_, ?_⟩ ?_ ?_ ?_).1
  · simp [Process.init]
  · intro i g h; simp [Process.init] at h
  · simpa [Process.init] using hn
  · simp
  · simpa using hg

theorem generate_valid (g : TagGenerator) (token : Option Bytes) (h : ∀ t ∈ token, ∀ b ∈ t, Alphanumeric b) :
    Str1 TagChar (g.generate token).1 := by
  have hd : ∀ b : UInt8, isDigit b = true → TagChar b := by
    intro b; rw [← tagChar_iff]; revert b; exact forall_byte (by decide)
  have hs : ∀ n, ∀ b ∈ showNat n, TagChar b := fun n b hb => hd b (List.all_eq_true.1 (showNat_digits n) b hb)
  have ha : ∀ b : UInt8, Alphanumeric b → TagChar b := by
    intro b; rw [← tagChar_iff]; unfold Alphanumeric; revert b; exact forall_byte (by decide)
  have hdot : TagChar 46 := by decide
  have hne := showNat_ne_nil g.global
  cases token with
  | none =>
    refine ⟨by simp [TagGenerator.generate], ?_⟩
    intro b hb
    simp only [TagGenerator.generate, List.mem_append, List.mem_singleton] at hb
    rcases hb with (hb | rfl) | hb
    · exact hs _ b hb
    · exact hdot
    · exact hs _ b hb
  | some t =>
    refine ⟨by simp [TagGenerator.generate], ?_⟩
    intro b hb
    simp only [TagGenerator.generate, List.mem_append, List.mem_singleton] at hb
    rcases hb with (((hb | rfl) | hb) | rfl) | hb
    · exact hs _ b hb
    · exact hdot
    · exact hs _ b hb
    · exact hdot
    · exact ha b (h t rfl b hb)

/-- C30: each generated tag is a valid tag. -/
theorem C30_valid (M : Nat) (calls : List TagCall) (ht : TokensOk calls) (s : Process) :
    ∀ t ∈ s.run M calls, Str1 TagChar t := by
  induction calls generalizing s with
  | nil => simp [Process.run]
  | cons x cs ih =>
    intro t hm
    simp only [Process.run, List.mem_append, Option.mem_toList] at hm
    rcases hm with hm | hm
    · cases x with
      | new => simp [Process.call] at hm
      | generate i token =>
        simp only [Process.call] at hm
        split at hm
        · simp only [Option.mem_def, Option.some.injEq] at hm
          subst hm
          refine generate_valid _ _ fun t ht' b hb => ?_
          obtain rfl : token = some t := ht'
          exact ht i t (by simp) b hb
        · simp at hm
    · exact ih (fun i token h => ht i token (List.mem_cons_of_mem _ h)) _ t hm

/-- C30: each call of `generate` of a generator that was created returns a tag, i.e. the number of tags is the number of such calls. -/
theorem C30_count (M : Nat) (calls : List TagCall) (s : Process)
    (h : ∀ i token, .generate i token ∈ calls → i < s.generators.length) :
    (s.run M calls).length = calls.length - news calls := by
  induction calls generalizing s with
  | nil => rfl
  | cons x cs ih =>
    cases x with
    | new =>
      have e := ih (s.call M .new).2 (fun i token hm => by
        have := h i token (List.mem_cons_of_mem _ hm)
        simp only [Process.call, List.length_append, List.length_singleton]
        omega)
      simp only [Process.run, List.length_append, e]
      simp [Process.call, news]
    | generate i token =>
      have hi := h i token (by simp)
      have e := ih (s.call M (.generate i token)).2 (fun j token' hm => by
        have := h j token' (List.mem_cons_of_mem _ hm)
        simp only [Process.call, List.getElem?_eq_getElem hi, List.length_set]
        exact this)
      have hle : news cs ≤ cs.length := List.countP_le_length
      have hn : news (.generate i token :: cs) = news cs := by simp [news]
      have h1 : (s.call M (.generate i token)).1.toList.length = 1 := by
        simp only [Process.call, List.getElem?_eq_getElem hi, Option.toList_some, List.length_singleton]
      simp only [Process.run, List.length_append, e, hn, h1, List.length_cons]
      omega

end Imap

namespace Imap.TagExamples

open Imap

/-- Two generators, interleaved. -/
def calls : List TagCall := [.new, .generate 0 none, .new, .generate 1 (some b!"abcDEF12"), .generate 0 (some b!"00000000"), .generate 1 none]

example : Process.init.run (2 ^ 64) calls = [b!"0.0", b!"1.0.abcDEF12", b!"0.1.00000000", b!"1.1"] := by with_unfolding_all decide
example : (Process.init.run (2 ^ 64) calls).Nodup := C30_unique _ _ (by decide) fun i => by
  unfold generates
  exact Nat.le_trans List.countP_le_length (by decide)
example : TokensOk calls := by
  intro i token h b hb
  simp only [calls, List.mem_cons, TagCall.generate.injEq, Option.some.injEq, reduceCtorEq, and_false, List.not_mem_nil,
    or_false, false_or] at h
  rcases h with ⟨-, rfl⟩ | ⟨-, rfl⟩
  · revert b; unfold Alphanumeric; decide
  · revert b; unfold Alphanumeric; decide

end Imap.TagExamples
