import Verif.Printing
import Verif.PrintingSpec
import Verif.ResponsePost
import Verif.Props.Names

/-!
# C54: the textual forms of names

The types of names have a textual form (`Display`, `AsRef<str>`, `TryFrom<&str>`, `FromStr`).
-/
set_option maxRecDepth 10000
namespace Imap

open Spec

/-! ## Lemmas -/

theorem atom_ok {s : Bytes} (h : IsAtom s) : Atom.tryFrom s = .ok s := (C25_atom.2 s).1 h

theorem atom_err {s : Bytes} (h : ¬ IsAtom s) : ∃ e, Atom.tryFrom s = .err e := by
  by_cases hs : s = []
  · exact ⟨_, hs ▸ C25_atom.1⟩
  · rcases all_or_firstBad AtomChar s with hc | ⟨b, i, hb⟩
    · exact absurd ⟨hs, hc⟩ h
    exact ⟨_, (C25_atom.2 s).2 b i hb⟩

theorem textForm_atom {α : Type} {valid : α → Prop} {name : α → Bytes} {conv : Bytes → α} {parse : Bytes → Made ValidationError α}
    (hp : ∀ s, parse s = (do return conv (← Atom.tryFrom s)))
    (hb : ∀ v, valid v → IsAtom (name v) ∧ conv (name v) = v) (hv : ∀ a, IsAtom a → valid (conv a))
    (hl : ∀ a, lowerAll (name (conv a)) = lowerAll a) : TextForm IsAtom valid name parse := by
  have ok : ∀ s, IsAtom s → parse s = .ok (conv s) := fun s h => by rw [hp, atom_ok h]; rfl
  have er : ∀ s, ¬ IsAtom s → ∃ e, parse s = .err e := fun s h => by
    obtain ⟨e, he⟩ := atom_err h
    exact ⟨e, by rw [hp, he]; rfl⟩
  have inv : ∀ s v, parse s = .ok v → IsAtom s ∧ v = conv s := fun s v h => by
    by_cases hs : IsAtom s
    · rw [ok s hs] at h; cases h; exact ⟨hs, rfl⟩
    · obtain ⟨e, he⟩ := er s hs
      rw [he] at h; cases h
  refine ⟨fun v h => ?_, fun s => ⟨?_, fun h => ⟨_, ok s h⟩⟩, er, fun s v h => ?_⟩
  · rw [ok _ (hb v h).1, (hb v h).2]
  · rintro ⟨v, h⟩; exact (inv s v h).1
  · obtain ⟨h1, rfl⟩ := inv s v h
    exact ⟨hv s h1, hl s⟩

theorem lower_of_recognises {α : Type} {known : List (Bytes × α)} {other conv : Bytes → α} {name : α → Bytes}
    (h : Recognises known other conv) (hk : ∀ x ∈ known, lowerAll (name x.2) = x.1) (ho : ∀ a, name (other a) = a) (a : Bytes) :
    lowerAll (name (conv a)) = lowerAll a := by
  by_cases hc : ∃ x ∈ known, lowerAll a = x.1
  · obtain ⟨x, hx, e⟩ := hc
    rw [(h a).1 x hx e, hk x hx, e]
  · rw [(h a).2 (fun x hx e => hc ⟨x, hx, e⟩), ho]

theorem atom_not_backslash {s : Bytes} (h : IsAtom (92 :: s)) : False := absurd (h.2 92 (by simp)) (by decide)

/-! ## The textual forms -/

/-- C54 for authentication mechanisms (`Display`, `AsRef<str>`, `TryFrom<&str>`, `FromStr`). PARTIAL: `SCRAM-SHA3-512` and
`SCRAM-SHA3-512-PLUS` are not valid at the level `rt`, see `C54_negation_mechanism`. -/
theorem C54_mechanism_partial : TextForm IsAtom (AuthMechanism.Inv .rt) AuthMechanism.name AuthMechanism.tryFrom := by
  refine textForm_atom (fun _ => rfl) (fun v h => ?_) (fun a h => ?_)
    (lower_of_recognises C28_mechanism_partial (by decide) fun _ => rfl)
  · have := AuthMechanism.name_ofAtom ((AuthMechanism.inv_iff v).2 h)
    exact ⟨(Spec.isAtom_iff _).1 this.1, this.2⟩
  · exact (AuthMechanism.inv_iff _).1 (AuthMechanism.ofAtom_valid ((Spec.isAtom_iff _).2 h))

/-- The full statement of C54 is false for mechanisms: two of them are parsed as another value, which prints as the same text. -/
theorem C54_negation_mechanism : ∀ m ∈ [AuthMechanism.scramSha3_512, .scramSha3_512Plus],
    AuthMechanism.Inv .inv m ∧ AuthMechanism.tryFrom m.name = .ok (.other m.name) ∧ AuthMechanism.other m.name ≠ m := by
  intro m hm
  simp only [List.mem_cons, List.not_mem_nil, or_false] at hm
  rcases hm with rfl | rfl
  · exact ⟨by simp [AuthMechanism.Inv], by decide, by decide⟩
  · exact ⟨by simp [AuthMechanism.Inv], by decide, by decide⟩

/-- C54 for what can be enabled. -/
theorem C54_enable [Quirks] : TextForm IsAtom CapabilityEnable.Inv CapabilityEnable.name CapabilityEnable.tryFrom := by
  have key : ∀ x ∈ enableTable, lowerAll x.2.name = x.1 := by decide
  refine textForm_atom (fun _ => rfl) (fun v h => ?_) (fun a h => ?_)
    (lower_of_recognises C28_enable (fun x hx => key x (mem_enableNames.1 hx).1) fun _ => rfl)
  · have h := (CapabilityEnable.inv_iff v).2 h
    have hv := CapabilityEnable.name_ofAtom h
    exact ⟨(Spec.isAtom_iff _).1 hv.1, hv.2⟩
  · exact (CapabilityEnable.inv_iff _).1 (CapabilityEnable.ofAtom_valid ((Spec.isAtom_iff _).2 h))

/-- C54 for resources of quotas. -/
theorem C54_resource : TextForm IsAtom Resource.Inv Resource.name Resource.tryFrom := by
  refine textForm_atom (fun _ => rfl) (fun v h => ?_) (fun a h => ?_) (lower_of_recognises C28_resource (by decide) fun _ => rfl)
  · cases v with
    | other a =>
      refine ⟨h.1, (C28_resource a).2 fun x hx e => h.2 ?_⟩
      have key : ∀ x ∈ resourceNames, x.1 ∈ [b!"storage", b!"message", b!"mailbox", b!"annotation-storage"] := by decide
      exact e ▸ key x hx
    | _ => exact ⟨(Spec.isAtom_iff _).1 rfl, rfl⟩
  · exact (Resource.inv_iff _).1 (Resource.ofAtom_valid ((Spec.isAtom_iff _).2 h))

/-- C54 for sort algorithms. -/
theorem C54_sort : TextForm IsAtom SortAlgorithm.Inv SortAlgorithm.name SortAlgorithm.tryFrom := by
  refine textForm_atom (fun _ => rfl) (fun v h => ?_) (fun a h => ?_) (lower_of_recognises C28_sort (by decide) fun _ => rfl)
  · have := SortAlgorithm.name_ofAtom ((SortAlgorithm.inv_iff v).2 h)
    exact ⟨(Spec.isAtom_iff _).1 this.1, this.2⟩
  · exact (SortAlgorithm.inv_iff _).1 (SortAlgorithm.ofAtom_valid ((Spec.isAtom_iff _).2 h))

/-- C54 for threading algorithms. -/
theorem C54_thread : TextForm IsAtom ThreadingAlgorithm.Inv ThreadingAlgorithm.name ThreadingAlgorithm.tryFrom := by
  refine textForm_atom (fun _ => rfl) (fun v h => ?_) (fun a h => ?_) (lower_of_recognises C28_thread (by decide) fun _ => rfl)
  · have := ThreadingAlgorithm.name_ofAtom ((ThreadingAlgorithm.inv_iff v).2 h)
    exact ⟨(Spec.isAtom_iff _).1 this.1, this.2⟩
  · exact (ThreadingAlgorithm.inv_iff _).1 (ThreadingAlgorithm.ofAtom_valid ((Spec.isAtom_iff _).2 h))

/-- C54 for compression algorithms. -/
theorem C54_compression : TextForm (fun s => lowerAll s = b!"deflate") (fun _ => True) CompressionAlgorithm.name
    CompressionAlgorithm.tryFrom := by
  refine ⟨fun v _ => by cases v; rfl, fun s => ⟨?_, fun h => ⟨.deflate, by simp [CompressionAlgorithm.tryFrom, h]⟩⟩,
    fun s h => ⟨.invalid, by simp [CompressionAlgorithm.tryFrom, h]⟩, fun s v h => ⟨trivial, ?_⟩⟩
  · rintro ⟨v, h⟩
    by_contra hc
    simp [CompressionAlgorithm.tryFrom, hc] at h
  · by_cases hc : lowerAll s = b!"deflate"
    · cases v; exact hc.symm
    · simp [CompressionAlgorithm.tryFrom, hc] at h

theorem lower_append' (a b : Bytes) : lowerAll (a ++ b) = lowerAll a ++ lowerAll b := by simp [lowerAll]

theorem capability_name_quota {l r : Bytes} {c : Capability} (hl : lowerAll l = b!"quota") (h : Capability.ofPair l r = some c) :
    ∃ p x, lowerAll r = p ++ b!"res-" ++ x ∧ lowerAll c.name = b!"quota=res-" ++ x ∧ ∃ q, c = .quotaRes q := by
  rw [Capability.ofPair] at h
  simp only [hl] at h
  rw [if_neg (by decide), if_neg (by decide), if_pos trivial] at h
  split at h
  · next p x hs =>
    split at h
    · cases h
      refine ⟨p, x, splitOnce_eq hs, ?_, _, rfl⟩
      rw [Capability.name, lower_append', lower_of_recognises C28_resource (by decide) fun _ => rfl]
      have hx : lowerAll x = x := by
        have e := splitOnce_eq hs
        have e2 : lowerAll (lowerAll r) = lowerAll r := by simp [lowerAll, lower_lower]
        rw [e] at e2
        simp only [lower_append'] at e2
        exact (List.append_inj e2 (by simp [lowerAll])).2
      rw [hx]
      rfl
    · cases h
  · cases h

theorem capability_name_pair {l r : Bytes} {c : Capability} (hl : lowerAll l ≠ b!"quota") (h : Capability.ofPair l r = some c) :
    lowerAll c.name = lowerAll (l ++ b!"=" ++ r) ∧ ∀ q, c ≠ .quotaRes q := by
  rw [lower_append', lower_append']
  rw [Capability.ofPair] at h
  split at h
  · next e =>
    split at h <;> cases h
    rw [Capability.name, lower_append', lower_of_recognises C28_mechanism_partial (by decide) fun _ => rfl, e]
    exact ⟨rfl, by simp⟩
  split at h
  · next e =>
    split at h
    · next e2 =>
      cases h
      simp only [Bool.and_eq_true, beq_iff_eq] at e2
      rw [e, e2.2]
      exact ⟨by decide, by simp⟩
    · cases h
  split at h
  · next e =>
    split at h <;> cases h
    rw [Capability.name, lower_append', lower_of_recognises C28_sort (by decide) fun _ => rfl, e]
    exact ⟨rfl, by simp⟩
  split at h
  · next e =>
    split at h <;> cases h
    rw [Capability.name, lower_append', lower_of_recognises C28_thread (by decide) fun _ => rfl, e]
    exact ⟨rfl, by simp⟩
  · cases h

theorem capability_name_lower [Quirks] (s : Bytes) : lowerAll (Capability.ofAtom s).name = lowerAll s ∨
    ∃ q p x, Capability.ofAtom s = .quotaRes q ∧ lowerAll s = b!"quota=" ++ p ++ b!"res-" ++ x ∧
      lowerAll (Capability.ofAtom s).name = b!"quota=res-" ++ x := by
  rw [Capability.ofAtom]
  split
  · next c hc =>
    have key : ∀ x ∈ Capability.fixed, lowerAll x.2.name = x.1 := by decide
    simp only [Option.filter_eq_some_iff] at hc
    exact .inl (key _ (lookup_mem hc.1))
  · split
    · next l r e =>
      obtain rfl := splitOnce_eq e
      cases ho : Capability.ofPair l r with
      | none => exact .inl rfl
      | some c =>
        by_cases hl : lowerAll l = b!"quota"
        · obtain ⟨p, x, h1, h2, q, h3⟩ := capability_name_quota hl ho
          refine .inr ⟨q, p, x, h3, ?_, h2⟩
          rw [lower_append', lower_append', hl, h1]
          simp [lowerAll, lower]
        · exact .inl (capability_name_pair hl ho).1
    · exact .inl rfl

/-- C54 for capabilities: what has been printed can be parsed; the texts that can be parsed are the atoms; and a parsed value prints as
the text it was parsed from, up to letter case, unless it is a resource of quotas: then the text between `QUOTA=` and `RES-` is lost.
PARTIAL: `NAMESPACE`, two mechanisms and some resources of quotas are not valid at the level `rt`, see `C54_negation_capability`. -/
theorem C54_capability_partial [Quirks] :
    (∀ c, Capability.Inv .rt c → Capability.tryFrom c.name = .ok c) ∧
    (∀ s, (∃ c, Capability.tryFrom s = .ok c) ↔ IsAtom s) ∧ (∀ s, ¬ IsAtom s → ∃ e, Capability.tryFrom s = .err e) ∧
    ∀ s c, Capability.tryFrom s = .ok c → Capability.Inv .rt c ∧
      (lowerAll c.name = lowerAll s ∨ ∃ q p x, c = .quotaRes q ∧ lowerAll s = b!"quota=" ++ p ++ b!"res-" ++ x ∧
        lowerAll c.name = b!"quota=res-" ++ x) := by
  have ok : ∀ s, IsAtom s → Capability.tryFrom s = .ok (.ofAtom s) := fun s h => by rw [Capability.tryFrom, atom_ok h]; rfl
  have er : ∀ s, ¬ IsAtom s → ∃ e, Capability.tryFrom s = .err e := fun s h => by
    obtain ⟨e, he⟩ := atom_err h
    exact ⟨e, by rw [Capability.tryFrom, he]; rfl⟩
  have inv : ∀ s v, Capability.tryFrom s = .ok v → IsAtom s ∧ v = .ofAtom s := fun s v h => by
    by_cases hs : IsAtom s
    · rw [ok s hs] at h; cases h; exact ⟨hs, rfl⟩
    · obtain ⟨e, he⟩ := er s hs
      rw [he] at h; cases h
  refine ⟨fun c h => ?_, fun s => ⟨?_, fun h => ⟨_, ok s h⟩⟩, er, fun s c h => ?_⟩
  · have := Capability.name_ofAtom ((Capability.inv_iff c).2 h)
    rw [ok _ ((Spec.isAtom_iff _).1 this.1), this.2]
  · rintro ⟨v, h⟩; exact (inv s v h).1
  · obtain ⟨h1, rfl⟩ := inv s c h
    exact ⟨(Capability.inv_iff _).1 (Capability.ofAtom_valid ((Spec.isAtom_iff _).2 h1)), capability_name_lower s⟩

/-- The full statement of C54 is false for capabilities: `NAMESPACE` is parsed as another value, a resource of quotas is changed to
lowercase, and a parsed text can print as another one. -/
theorem C54_negation_capability [Quirks] :
    Capability.tryFrom (Capability.name .namespace_) = .ok (.other b!"NAMESPACE") ∧
    Capability.tryFrom (Capability.name (.quotaRes (.other b!"X-Foo"))) = .ok (.quotaRes (.other b!"x-foo")) ∧
    Capability.tryFrom b!"QUOTA=X-RES-STORAGE" = .ok (.quotaRes .storage) ∧ Capability.name (.quotaRes .storage) = b!"QUOTA=RES-STORAGE" :=
  ⟨rfl, rfl, rfl, rfl⟩

theorem textForm_flag {α : Type} {valid : α → Prop} {print : α → Bytes} {system keyword : Bytes → α} {mark : Bytes}
    {parse : Bytes → Made ValidationError α} (hm : ∃ m, mark = 92 :: m)
    (hs : ∀ a, parse (mark ++ a) = (do return system (← Atom.tryFrom a)))
    (hk : ∀ s, ¬ mark <+: s → parse s = (do return keyword (← Atom.tryFrom s)))
    (hb : ∀ v, valid v → (∃ a, IsAtom a ∧ print v = mark ++ a ∧ system a = v) ∨ ∃ a, IsAtom a ∧ print v = a ∧ keyword a = v)
    (hv : ∀ a, IsAtom a → valid (system a) ∧ valid (keyword a))
    (hl : ∀ a, lowerAll (print (system a)) = lowerAll (mark ++ a) ∧ print (keyword a) = a) :
    TextForm (IsFlagText mark) valid print parse := by
  obtain ⟨m, rfl⟩ := hm
  have np : ∀ s, IsAtom s → ¬ (92 :: m) <+: s := by
    rintro s h ⟨t, rfl⟩
    exact atom_not_backslash (s := m ++ t) h
  have ok1 : ∀ a, IsAtom a → parse (92 :: m ++ a) = .ok (system a) := fun a h => by rw [hs, atom_ok h]; rfl
  have ok2 : ∀ a, IsAtom a → parse a = .ok (keyword a) := fun a h => by rw [hk a (np a h), atom_ok h]; rfl
  have er : ∀ s, ¬ IsFlagText (92 :: m) s → ∃ e, parse s = .err e := by
    intro s h
    by_cases hp : (92 :: m) <+: s
    · obtain ⟨a, rfl⟩ := hp
      obtain ⟨e, he⟩ := atom_err (s := a) fun ha => h (.inr ⟨a, ha, rfl⟩)
      exact ⟨e, by rw [hs, he]; rfl⟩
    · obtain ⟨e, he⟩ := atom_err (s := s) fun ha => h (.inl ha)
      exact ⟨e, by rw [hk s hp, he]; rfl⟩
  have acc : ∀ s v, parse s = .ok v → IsFlagText (92 :: m) s := by
    intro s v h
    by_contra hc
    obtain ⟨e, he⟩ := er s hc
    rw [he] at h; cases h
  refine ⟨fun v h => ?_, fun s => ⟨fun ⟨v, h⟩ => acc s v h, ?_⟩, er, fun s v h => ?_⟩
  · rcases hb v h with ⟨a, ha, e, rfl⟩ | ⟨a, ha, e, rfl⟩
    · rw [e, ok1 a ha]
    · rw [e, ok2 a ha]
  · rintro (h | ⟨a, h, rfl⟩)
    · exact ⟨_, ok2 s h⟩
    · exact ⟨_, ok1 a h⟩
  · rcases acc s v h with ha | ⟨a, ha, rfl⟩
    · rw [ok2 s ha] at h
      cases h
      exact ⟨(hv s ha).2, by rw [(hl s).2]⟩
    · rw [ok1 a ha] at h
      cases h
      exact ⟨(hv a ha).1, (hl a).1⟩

/-- C54 for flags: a system flag is written with a backslash. -/
theorem C54_flag : TextForm (IsFlagText b!"\\") Flag.Inv Flag.text Flag.tryFrom := by
  refine textForm_flag (system := Flag.system) (keyword := .keyword) ⟨[], rfl⟩ (fun a => rfl) (fun s h => ?_) (fun v h => ?_)
    (fun a h => ⟨?_, h⟩) (fun a => ⟨?_, ?_⟩)
  · unfold Flag.tryFrom
    split
    · next v => exact absurd ⟨v, rfl⟩ h
    · rfl
  · cases v with
    | extension a =>
      refine .inl ⟨a, h.1, by simp [Flag.text, Flag.enc], (C28_flag a).2 fun x hx e => h.2 ?_⟩
      have key : ∀ x ∈ flagNames, x.1 ∈ [b!"answered", b!"deleted", b!"draft", b!"flagged", b!"seen"] := by decide
      exact e ▸ key x hx
    | keyword a => exact .inr ⟨a, h, by simp [Flag.text, Flag.enc], rfl⟩
    | answered => exact .inl ⟨b!"Answered", (Spec.isAtom_iff _).1 rfl, rfl, rfl⟩
    | deleted => exact .inl ⟨b!"Deleted", (Spec.isAtom_iff _).1 rfl, rfl, rfl⟩
    | draft => exact .inl ⟨b!"Draft", (Spec.isAtom_iff _).1 rfl, rfl, rfl⟩
    | flagged => exact .inl ⟨b!"Flagged", (Spec.isAtom_iff _).1 rfl, rfl, rfl⟩
    | seen => exact .inl ⟨b!"Seen", (Spec.isAtom_iff _).1 rfl, rfl, rfl⟩
  · by_cases hc : ∃ x ∈ flagNames, lowerAll a = x.1
    · obtain ⟨x, hx, e⟩ := hc
      rw [(C28_flag a).1 x hx e]
      simp only [flagNames, List.mem_cons, List.not_mem_nil, or_false] at hx
      rcases hx with rfl | rfl | rfl | rfl | rfl <;> trivial
    · rw [(C28_flag a).2 fun x hx e => hc ⟨x, hx, e⟩]
      refine ⟨h, fun hm => hc ?_⟩
      have key : ∀ n ∈ [b!"answered", b!"deleted", b!"draft", b!"flagged", b!"seen"], ∃ x ∈ flagNames, n = x.1 := by decide
      exact key _ hm
  · by_cases hc : ∃ x ∈ flagNames, lowerAll a = x.1
    · obtain ⟨x, hx, e⟩ := hc
      rw [(C28_flag a).1 x hx e, lower_append', e]
      have key : ∀ x ∈ flagNames, lowerAll (Flag.text x.2) = lowerAll b!"\\" ++ x.1 := by decide
      exact key x hx
    · rw [(C28_flag a).2 fun x hx e => hc ⟨x, hx, e⟩]
      simp [Flag.text, Flag.enc]
  · simp [Flag.text, Flag.enc]

/-- The names of system flags are recognised whatever the letter case. -/
theorem C54_attributeFlag_names : Recognises attributeFlagNames .extension AttributeFlag.system := by
  intro a
  simp only [attributeFlagNames, List.forall_mem_cons, AttributeFlag.system]
  refine ⟨⟨?_, ?_, ?_, ?_, ?_, by simp⟩, ?_⟩
  all_goals (intro h; simp_all)

/-- C54 for the flags in searches for modification sequences: a system flag is written with two backslashes, as in a quoted string. -/
theorem C54_attributeFlag : TextForm (IsFlagText b!"\\\\") AttributeFlag.Inv AttributeFlag.enc AttributeFlag.tryFrom := by
  refine textForm_flag (system := AttributeFlag.system) (keyword := .keyword) ⟨[92], rfl⟩ (fun a => rfl) (fun s h => ?_) (fun v h => ?_)
    (fun a h => ⟨?_, h⟩) (fun a => ⟨?_, ?_⟩)
  · unfold AttributeFlag.tryFrom
    split
    · next v => exact absurd ⟨v, rfl⟩ h
    · rfl
  · cases v with
    | extension a =>
      refine .inl ⟨a, h.1, by simp [AttributeFlag.enc], (C54_attributeFlag_names a).2 fun x hx e => h.2 ?_⟩
      have key : ∀ x ∈ attributeFlagNames, x.1 ∈ [b!"answered", b!"deleted", b!"draft", b!"flagged", b!"seen"] := by decide
      exact e ▸ key x hx
    | keyword a => exact .inr ⟨a, h, by simp [AttributeFlag.enc], rfl⟩
    | answered => exact .inl ⟨b!"Answered", (Spec.isAtom_iff _).1 rfl, rfl, rfl⟩
    | deleted => exact .inl ⟨b!"Deleted", (Spec.isAtom_iff _).1 rfl, rfl, rfl⟩
    | draft => exact .inl ⟨b!"Draft", (Spec.isAtom_iff _).1 rfl, rfl, rfl⟩
    | flagged => exact .inl ⟨b!"Flagged", (Spec.isAtom_iff _).1 rfl, rfl, rfl⟩
    | seen => exact .inl ⟨b!"Seen", (Spec.isAtom_iff _).1 rfl, rfl, rfl⟩
  · by_cases hc : ∃ x ∈ attributeFlagNames, lowerAll a = x.1
    · obtain ⟨x, hx, e⟩ := hc
      rw [(C54_attributeFlag_names a).1 x hx e]
      simp only [attributeFlagNames, List.mem_cons, List.not_mem_nil, or_false] at hx
      rcases hx with rfl | rfl | rfl | rfl | rfl <;> trivial
    · rw [(C54_attributeFlag_names a).2 fun x hx e => hc ⟨x, hx, e⟩]
      refine ⟨h, fun hm => hc ?_⟩
      have key : ∀ n ∈ [b!"answered", b!"deleted", b!"draft", b!"flagged", b!"seen"], ∃ x ∈ attributeFlagNames, n = x.1 := by decide
      exact key _ hm
  · by_cases hc : ∃ x ∈ attributeFlagNames, lowerAll a = x.1
    · obtain ⟨x, hx, e⟩ := hc
      rw [(C54_attributeFlag_names a).1 x hx e, lower_append', e]
      have key : ∀ x ∈ attributeFlagNames, lowerAll (AttributeFlag.enc x.2) = lowerAll b!"\\\\" ++ x.1 := by decide
      exact key x hx
    · rw [(C54_attributeFlag_names a).2 fun x hx e => hc ⟨x, hx, e⟩]
      simp [AttributeFlag.enc]
  · simp [AttributeFlag.enc]

/-! ## The text of errors -/

theorem hex2_spec : ∀ b : UInt8, ∃ h l : UInt8, hex2 b = [h, l] ∧ h ∈ b!"0123456789abcdef" ∧ l ∈ b!"0123456789abcdef" ∧
    (b!"0123456789abcdef").idxOf h * 16 + (b!"0123456789abcdef").idxOf l = b.toNat := by
  intro b
  refine ⟨(hex2 b)[0]'(by simp [hex2]), (hex2 b)[1]'(by simp [hex2]), by simp [hex2], ?_⟩
  revert b
  exact forall_byte (by decide +kernel)

/-- C54: the message of the error for a string with a character that is not allowed names the byte, and its position. `Validates1 c mk f`
holds for each type of strings, see C25. -/
theorem C54_error_text {α : Type} {c : UInt8 → Prop} {mk : Bytes → α} {f : Bytes → Made ValidationError α} (hf : Validates1 c mk f)
    (v : Bytes) (b : UInt8) (i : Nat) (h : FirstBad c v b i) : ∃ e, f v = .err e ∧ ErrorTextAt e.text b i := by
  refine ⟨_, (hf.2 v).2 b i h, ?_⟩
  obtain ⟨x, y, h1, h2, h3, h4⟩ := hex2_spec b
  refine ⟨x, y, ?_, h2, h3, h4⟩
  simp [ValidationError.text, h1]


/-! ## Examples -/

/-- A flag in any letter case is printed in the usual form. -/
example : Flag.tryFrom b!"\\sEEN" = .ok .seen ∧ Flag.text .seen = b!"\\Seen" ∧ Flag.tryFrom b!"seen" = .ok (.keyword b!"seen") ∧
    Flag.tryFrom b!"\\" = .err .empty ∧ Flag.tryFrom b!"\\x y" = .err (.invalidByteAt 32 1) := by decide

/-- An extension is printed with its own letters. -/
example : AttributeFlag.tryFrom b!"\\\\Custom" = .ok (.extension b!"Custom") ∧
    AttributeFlag.enc (.extension b!"Custom") = b!"\\\\Custom" ∧ AttributeFlag.tryFrom b!"\\Seen" = .err (.invalidByteAt 92 0) := by decide

/-- The hypotheses of `C54_error_text` are met: a parenthesis in an atom. -/
example : FirstBad AtomChar b!"ab)" 41 2 ∧ ErrorTextAt b!"Validation failed: Invalid byte b'\\x29' at index 2" 41 2 ∧
    ValidationError.text (.invalidByteAt 41 2) = b!"Validation failed: Invalid byte b'\\x29' at index 2" :=
  ⟨⟨b!"ab", [], rfl, rfl, by decide, by decide⟩, ⟨50, 57, by decide +kernel, by decide, by decide, by decide⟩, by decide +kernel⟩

/-- Values that meet the hypotheses of `back`: a mechanism, a resource, and a capability with another algorithm. -/
example [Quirks] : AuthMechanism.tryFrom b!"scram-sha-256" = .ok .scramSha256 ∧ Resource.tryFrom b!"Storage" = .ok .storage ∧
    Capability.tryFrom b!"thread=References" = .ok (.thread .references) ∧ Capability.name (.thread .references) = b!"THREAD=REFERENCES" ∧
    CompressionAlgorithm.tryFrom b!"Deflate" = .ok .deflate ∧ CompressionAlgorithm.tryFrom b!"gzip" = .err .invalid :=
  ⟨rfl, rfl, rfl, rfl, rfl, rfl⟩

end Imap
