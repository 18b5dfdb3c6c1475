import Verif.ArbitraryReach
set_option maxRecDepth 10000
/-! What the generators of Verif/Arbitrary.lean never return. -/
namespace Imap.Arb
open Imap.Spec

/-- All values that the generator returns have the property. -/
def Only {α : Type} (g : Gen α) (P : α → Prop) : Prop := ∀ a, g (.ok a) → P a

section rules
variable {α β : Type} {g : Gen α} {P : α → Prop} {R : β → Prop}

theorem Only.pure {a : α} (h : P a) : Only (pure a) P := fun b hb => by rw [ok_pure.1 hb]; exact h

theorem Only.bind {f : α → Gen β} (h : Only g P) (hf : ∀ a, P a → Only (f a) R) : Only (g >>= f) R := fun b hb => by
  obtain ⟨a, ha, hb⟩ := ok_bind.1 hb
  exact hf a (h a ha) b hb

theorem Only.skip {f : α → Gen β} (hf : ∀ a, Only (f a) R) : Only (g >>= f) R := .bind (P := fun _ => True) (fun _ _ => trivial) fun a _ => hf a

theorem Only.oneOf {l : List (Gen α)} (h : ∀ g ∈ l, Only g P) : Only (oneOf l) P := fun a ⟨g, hg, ha⟩ => h g hg a ha

theorem Only.onlyIf {b : Bool} (h : Only g P) : Only (onlyIf b g) P := fun a ha => h a ha.2

theorem Only.panic : Only (panic : Gen α) P := fun a ha => by cases ha

theorem Only.opt (h : Only g P) : Only (opt g) (Opt P) := .skip fun b => by
  cases b with
  | false => exact .pure fun a ha => by cases ha
  | true => exact .bind h fun a ha => .pure fun b hb => by cases hb; exact ha

theorem Only.times (h : Only g P) : ∀ n, Only (times g n) (All P)
  | 0 => .pure (by simp [All])
  | n + 1 => .bind h fun a ha => .bind (Only.times h n) fun l hl => .pure (by
      intro b hb
      rcases List.mem_cons.1 hb with rfl | hb
      · exact ha
      · exact hl b hb)

theorem Only.vec (h : Only g P) : Only (vec g) (All P) := .skip fun n => Only.times h n

theorem Only.vec1 (h : Only g P) : Only (vec1 g) (All P) := .bind (Only.vec h) fun l hl l' hl' => by
  rw [(vecN_ok (ok_of.1 hl')).1]
  exact hl

theorem Only.nonEmptyOr {l : List α} {leaf : Gen α} (hl : All P l) (h : Only leaf P) : Only (nonEmptyOr l leaf) (All P) := by
  unfold Arb.nonEmptyOr
  split
  · exact .bind h fun a ha => .pure (by simpa [All] using ha)
  · intro l' hl'
    rw [(vecN_ok (ok_unwrap.1 hl')).1]
    exact hl

end rules

variable [e : Entropy]

theorem only_mailbox : Only mailbox SimplestForm := by
  refine .bind (P := fun s => isUtf8 s = true) (fun s hs => (ok_any.1 hs).2) fun v hu m hm => ?_
  have hm := ok_of.1 hm
  obtain ⟨h1, h2, h3, h4⟩ := C25_astring v
  rcases all_or_firstBad NotNul v with h0 | ⟨b, i, hb⟩
  · have key : ∀ s, AString.tryFrom v = .ok s → Mailbox.ofAString s = m := by
      intro s hs
      simp only [Mailbox.tryFrom, hs, Made.bind_ok, Mailbox.fromAString_eq] at hm
      cases hm
      rfl
    have form : ∀ s, AString.tryFrom v = .ok s → SimplestForm (.other s) → SimplestForm m := by
      intro s hs hf
      rw [← key s hs]
      unfold Mailbox.ofAString
      split
      · trivial
      · exact hf
    by_cases ha : Str1 AStringChar v
    · exact form _ (h1 ha) trivial
    · by_cases ht : ∀ b ∈ v, TextChar b
      · exact form _ (h2 ha ht) ha
      · have ht : ∃ b ∈ v, ¬ TextChar b := by simpa using ht
        exact form _ (h3 ht fun h => h0 0 h rfl) ⟨rfl, hu, ht⟩
  · have := h4 b i hb
    simp only [Mailbox.tryFrom, this] at hm
    cases hm

omit e in
theorem only_dateTime : Only dateTime NotWest := fun t ht => ((dateTime_ok t).1 ht).2

variable [q : Quirks]

omit e q in
theorem keyWithin_mono : ∀ {k : SearchKey} {n m : Nat}, n ≤ m → KeyWithin n k → KeyWithin m k := by
  intro k
  induction k using SearchKey.rec (motive_2 := fun l => ∀ {n m : Nat}, n ≤ m → KeyWithin.go n l → KeyWithin.go m l) with
  | and l ih => intro n m hnm h; exact ⟨by have := h.1; omega, ih (by omega) h.2⟩
  | or a b iha ihb => intro n m hnm h; exact ⟨by have := h.1; omega, iha (by omega) h.2.1, ihb (by omega) h.2.2⟩
  | not k ih => intro n m hnm h; exact ⟨by have := h.1; omega, ih (by omega) h.2⟩
  | modSequence a b => intro n m hnm h; exact Nat.le_trans h hnm
  | nil => trivial
  | cons k l ihk ihl => rename_i hnm h; exact ⟨ihk hnm h.1, ihl hnm h.2⟩
  | _ => intro n m _ _; trivial

theorem only_searchKeyLeaf : Only searchKeyLeaf (KeyWithin 0) := by
  unfold searchKeyLeaf
  refine .skip fun n => ?_
  split
  all_goals repeat' first | exact Only.pure trivial | exact Only.panic | refine Only.skip fun _ => ?_

theorem only_searchKeyLimited : ∀ d, Only (searchKeyLimited d) (KeyWithin d)
  | 0 => only_searchKeyLeaf
  | d + 1 => by
    have ih := only_searchKeyLimited d
    have leaf : Only searchKeyLeaf (KeyWithin d) := fun k hk => keyWithin_mono (by omega) (only_searchKeyLeaf k hk)
    unfold searchKeyLimited
    refine .skip fun n => ?_
    split
    · exact .bind (.vec ih) fun l hl => .bind (.nonEmptyOr hl leaf) fun l hl => .pure ⟨by omega, KeyWithin.go_iff.2 hl⟩
    case h_17 => exact .bind ih fun k hk => .pure ⟨by omega, hk⟩
    case h_20 => exact .bind ih fun a ha => .bind ih fun b hb => .pure ⟨by omega, ha, hb⟩
    case h_38 =>
      split
      · exact .skip fun _ => .skip fun _ => .pure (by simp [KeyWithin])
      · exact .panic
    all_goals repeat' first | exact Only.pure trivial | exact Only.panic | refine Only.skip fun _ => ?_

theorem only_searchKey : Only searchKey (KeyWithin 7) := by
  unfold searchKey
  split
  · exact fun k hk => keyWithin_mono (by omega) (only_searchKeyLeaf k hk)
  · exact only_searchKeyLimited 7

/-- The parts of an enum of which only some matter. -/
macro "only_parts" : tactic => `(tactic| (
  refine Only.oneOf ?_
  repeat' with_reducible refine List.forall_mem_cons.2 ⟨?_, ?_⟩
  all_goals first | (intro _ h; cases h; done) | skip
  all_goals repeat' first
    | with_reducible refine Only.pure ?_
    | with_reducible refine Only.onlyIf ?_
    | with_reducible refine Only.bind only_mailbox fun _ _ => ?_
    | with_reducible refine Only.bind (.opt only_dateTime) fun _ _ => ?_
    | with_reducible refine Only.bind only_dateTime fun _ _ => ?_
    | with_reducible refine Only.bind (.vec1 only_searchKey) fun _ _ => ?_
    | with_reducible refine Only.skip fun _ => ?_))

theorem only_command : Only command fun c => TypicalCommand c.body := by
  refine .skip fun t => .bind (P := TypicalCommand) ?_ fun c hc => .pure hc
  unfold commandBody
  only_parts
  all_goals trivial

theorem only_bodyExtension : Only bodyExtension fun x => ∀ l, x ≠ .list l := by
  have one : ∀ {rest : Nat → Gen BodyExtension},
      (rest 1 = do return .nstring (← nstring)) → (rest 2 = do return .number (← u32)) →
      Only (do rest (← intIn 1 2)) fun x => ∀ l, x ≠ .list l := by
    intro rest h1 h2
    refine .bind (P := fun n => 1 ≤ n ∧ n ≤ 2) (fun n hn => (ok_any (p := fun n => 1 ≤ n ∧ n ≤ 2)).1 hn) fun n hn => ?_
    have : n = 1 ∨ n = 2 := by omega
    rcases this with rfl | rfl
    · rw [h1]
      exact .skip fun s => .pure fun l e => by cases e
    · rw [h2]
      exact .skip fun s => .pure fun l e => by cases e
  unfold bodyExtension
  split
  · exact one rfl rfl
  · exact one rfl rfl

theorem only_disposition : Only (opt disposition) NoLists := by
  have loc : Only location (fun x => ∀ e ∈ x.extensions, ∀ list, e ≠ .list list) := .skip fun _ => .bind (.vec only_bodyExtension) fun l hl => .pure hl
  have lang : Only language (fun x => ∀ loc ∈ x.tail, ∀ e ∈ loc.extensions, ∀ list, e ≠ .list list) := .skip fun _ => .bind (.opt loc) fun l hl => .pure hl
  have disp : Only disposition (fun x => ∀ l ∈ x.tail, ∀ loc ∈ l.tail, ∀ e ∈ loc.extensions, ∀ list, e ≠ .list list) :=
    .skip fun _ => .bind (.opt lang) fun l hl => .pure hl
  exact .opt disp

theorem only_singlePartExt : Only (opt singlePartExt) fun x => ∀ e ∈ x, NoLists e.tail := .opt (.skip fun _ => .bind only_disposition fun _ h => .pure h)

theorem only_multiPartExt : Only (opt multiPartExt) fun x => ∀ e ∈ x, NoLists e.tail := .opt (.skip fun _ => .bind only_disposition fun _ h => .pure h)

omit e q in
theorem bodyWithin_mono : ∀ {k : BodyStructure} {n m : Nat}, n ≤ m → BodyWithin n k → BodyWithin m k := by
  intro k
  induction k using BodyStructure.rec (motive_2 := fun l => ∀ {n m : Nat}, n ≤ m → BodyWithin.go n l → BodyWithin.go m l) with
  | basic f t s x => intro n m _ h; exact h
  | text f s n x => intro n m _ h; exact h
  | message f e b n x ih => intro n m hnm h; exact ⟨by have := h.1; omega, ih (by omega) h.2.1, h.2.2⟩
  | multi l s x ih => intro n m hnm h; exact ⟨by have := h.1; omega, ih (by omega) h.2.1, h.2.2⟩
  | nil => trivial
  | cons k l ihk ihl => rename_i hnm h; exact ⟨ihk hnm h.1, ihl hnm h.2⟩

theorem only_bodyStructureLeaf : Only bodyStructureLeaf (BodyWithin 0) := by
  unfold bodyStructureLeaf
  refine .skip fun f => .skip fun n => ?_
  split
  · exact .skip fun _ => .skip fun _ => .bind only_singlePartExt fun x hx => .pure hx
  · exact .skip fun _ => .skip fun _ => .bind only_singlePartExt fun x hx => .pure hx
  · exact .panic

theorem only_bodyStructureLimited : ∀ d, Only (bodyStructureLimited d) (BodyWithin d)
  | 0 => only_bodyStructureLeaf
  | d + 1 => by
    have ih := only_bodyStructureLimited d
    have leaf : Only bodyStructureLeaf (BodyWithin d) := fun k hk => bodyWithin_mono (by omega) (only_bodyStructureLeaf k hk)
    unfold bodyStructureLimited
    refine .skip fun n => ?_
    split
    · refine .skip fun f => .skip fun n => ?_
      split
      · exact .skip fun _ => .skip fun _ => .bind only_singlePartExt fun x hx => .pure hx
      · exact .skip fun _ => .bind ih fun b hb => .skip fun _ => .bind only_singlePartExt fun x hx => .pure ⟨by omega, hb, hx⟩
      · exact .skip fun _ => .skip fun _ => .bind only_singlePartExt fun x hx => .pure hx
      · exact .panic
    · exact .bind (.vec ih) fun l hl => .bind (.nonEmptyOr hl leaf) fun l hl => .skip fun _ => .bind only_multiPartExt fun x hx =>
        .pure ⟨by omega, BodyWithin.go_iff.2 hl, hx⟩
    · exact .panic

theorem only_bodyStructure : Only bodyStructure (BodyWithin 3) := by
  unfold bodyStructure
  split
  · exact fun k hk => bodyWithin_mono (by omega) (only_bodyStructureLeaf k hk)
  · exact only_bodyStructureLimited 3

theorem only_code : Only (opt code) TypicalCode := by
  have : Only code fun c => ∀ s, c = .other s → s = b!"IMAP-CODEC-CODE-OTHER>" := by
    unfold code
    only_parts
    all_goals intro s hs
    all_goals cases hs
    rfl
  refine fun c hc s hs => ?_
  exact Only.opt this c hc _ hs s rfl

omit q in
theorem only_textNoBracket : Only textNoBracket fun t => t.head? ≠ some 91 := .skip fun t => by
  split
  · intro t' ht'
    have := (C25_text.2 b!"...").1 ⟨by decide, by unfold TextChar; decide⟩
    rw [this] at ht'
    rw [ok_pure.1 ht']
    decide
  · exact .pure (by assumption)

theorem only_greeting : Only greeting fun g => TypicalCode g.code ∧ g.text.head? ≠ some 91 :=
  .skip fun _ => .bind only_code fun _ hc => .bind only_textNoBracket fun _ ht => .pure ⟨hc, ht⟩

theorem only_status : Only status fun s => TypicalCode s.code := by
  refine .bind only_code fun c hc => .skip fun t => .skip fun n => ?_
  have tags : ∀ k, Only (do
      match ← opt tag with
      | some tag => return Status.tagged tag k c t
      | none => return .untagged k c t) fun s => TypicalCode s.code := by
    intro k
    refine .skip fun t => ?_
    cases t with
    | none => exact .pure hc
    | some t => exact .pure hc
  split
  · exact tags .ok
  · exact tags .no
  · exact tags .bad
  · exact .pure hc
  · exact .panic

theorem only_continueReq : Only continueReq fun r => Typical .response (.continue_ r) := by
  refine .oneOf ?_
  simp only [List.forall_mem_cons, List.not_mem_nil, false_imp_iff, implies_true, and_true]
  refine ⟨?_, .skip fun _ => .pure trivial⟩
  refine .bind only_code fun c hc => .skip fun t r hr => ?_
  have hr := ok_of.1 hr
  simp only [ContinueReq.mkBasic, Made.mapErr, Made.bind_ok] at hr
  unfold ContinueReq.ofBasic at hr
  split at hr
  · rename_i h
    split at h
    · cases h
    · split at h
      · cases h
      · cases h
        cases hr
        exact hc
  · cases hr

omit e q in
/-- The levels of twins add up. -/
theorem only_threadLoop : ∀ (d n : Nat) {t : Thread}, Twins n t → Only (threadLoop d t) (Twins (n + d))
  | 0, n, t, h => .pure h
  | d + 1, n, t, h => by
    have h2 : ∀ {l : List Thread}, unwrap (VecN.tryFrom 2 [t, t]) (.ok l) → l = [t, t] := fun h => (vecN_ok (ok_unwrap.1 h)).1
    have mono : ∀ {n : Nat} {t : Thread} (m : Nat), n ≤ m → Twins n t → Twins m t := by
      intro n
      induction n with
      | zero =>
        intro t m _ h
        rcases t with ⟨p, _ | ⟨a, l⟩⟩ | l
        · simp [Twins]
        · simp [Twins] at h
        · simp [Twins] at h
      | succ n ih =>
        intro t m hm h
        obtain ⟨m, rfl⟩ : ∃ m', m = m' + 1 := ⟨m - 1, by omega⟩
        rcases t with ⟨p, _ | ⟨a, _ | ⟨b, _ | _⟩⟩⟩ | (_ | ⟨a, _ | ⟨b, _ | _⟩⟩)
        all_goals first | (simp [Twins] at h; done) | (simp [Twins]; done) | exact ⟨h.1, ih m (by omega) h.2⟩
    unfold threadLoop
    refine .skip fun i => ?_
    rw [show n + (d + 1) = (n + 1) + d by omega]
    split
    · exact .skip fun p => .bind (P := fun l => l = [t, t]) (fun _ h => h2 h) fun l hl => by
        subst hl
        exact only_threadLoop d (n + 1) ⟨rfl, h⟩
    · exact .bind (P := fun l => l = [t, t]) (fun _ h => h2 h) fun l hl => by
        subst hl
        exact only_threadLoop d (n + 1) ⟨rfl, h⟩
    · exact .pure (mono _ (by omega) h)
    · exact .panic

omit q in
theorem only_thread : Only thread (Twins 7) := by
  have leaf : ∀ n, Only threadLeaf (Twins n) := fun n => .skip fun p => .pure (by simp [Twins])
  unfold thread
  split
  · exact leaf 7
  · exact .bind (leaf 0) fun t ht => by simpa using only_threadLoop 7 0 ht

theorem only_messageDataItem : Only messageDataItem TypicalItem := by
  unfold messageDataItem
  refine .oneOf ?_
  repeat' with_reducible refine List.forall_mem_cons.2 ⟨?_, ?_⟩
  all_goals first | (intro _ h; cases h; done) | skip
  all_goals repeat' first
    | with_reducible refine Only.pure ?_
    | with_reducible refine Only.onlyIf ?_
    | with_reducible refine Only.bind only_bodyStructure fun _ _ => ?_
    | with_reducible refine Only.bind only_dateTime fun _ _ => ?_
    | with_reducible refine Only.skip fun _ => ?_
  all_goals trivial

theorem only_data : Only data TypicalData := by
  unfold data
  refine .oneOf ?_
  repeat' with_reducible refine List.forall_mem_cons.2 ⟨?_, ?_⟩
  all_goals first | (intro _ h; cases h; done) | skip
  all_goals repeat' first
    | with_reducible refine Only.pure ?_
    | with_reducible refine Only.onlyIf ?_
    | with_reducible refine Only.bind only_mailbox fun _ _ => ?_
    | with_reducible refine Only.bind (.vec only_thread) fun _ _ => ?_
    | with_reducible refine Only.bind (.vec1 only_messageDataItem) fun _ _ => ?_
    | with_reducible refine Only.skip fun _ => ?_
  all_goals trivial

theorem only_message (k : Codec) : Only (message k) (Typical k) := by
  cases k with
  | greeting => exact only_greeting
  | command => exact only_command
  | authenticateData => exact fun _ _ => trivial
  | idleDone => exact fun _ _ => trivial
  | response =>
    refine .oneOf ?_
    simp only [List.forall_mem_cons, List.not_mem_nil, false_imp_iff, implies_true, and_true]
    exact ⟨.bind only_continueReq fun _ h => .pure h, .bind only_data fun _ h => .pure h, .bind only_status fun _ h => .pure h⟩

end Imap.Arb
