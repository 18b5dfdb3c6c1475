import Verif.NamesSpec
import Verif.Props.RoundTrip
import Verif.Props.Constructors
/-
C28: conversions from atoms to values with a catch-all variant.
-/
set_option maxRecDepth 10000

namespace Imap

open Spec

/-- C28 for system flags. -/
theorem C28_flag : Recognises flagNames .extension Flag.system := by
  intro a
  simp only [flagNames, List.forall_mem_cons, Flag.system]
  refine ⟨⟨?_, ?_, ?_, ?_, ?_, by simp⟩, ?_⟩
  all_goals (intro h; simp_all)

/-- C28 for attributes of mailboxes. -/
theorem C28_attribute : Recognises attributeNames .extension FlagNameAttribute.ofAtom := by
  intro a
  simp only [attributeNames, List.forall_mem_cons, FlagNameAttribute.ofAtom]
  refine ⟨⟨?_, ?_, ?_, ?_, by simp⟩, ?_⟩
  all_goals (intro h; simp_all)

theorem mem_inBuild {α : Type} {l : List (Bool × Bytes × α)} {x : Bytes × α} : x ∈ inBuild l ↔ (true, x) ∈ l := by
  simp [inBuild]

/-- The names of capabilities, for all builds together. -/
def capabilityTable : List (Bytes × Capability) :=
  [(b!"imap4rev1", .imap4Rev1), (b!"logindisabled", .loginDisabled), (b!"starttls", .startTls),
    (b!"mailbox-referrals", .mailboxReferrals), (b!"login-referrals", .loginReferrals), (b!"sasl-ir", .saslIr), (b!"idle", .idle),
    (b!"enable", .enable), (b!"compress=deflate", .compressDeflate), (b!"quota", .quota), (b!"quotaset", .quotaSet),
    (b!"literal+", .literalPlus), (b!"literal-", .literalMinus), (b!"move", .move_), (b!"id", .id_), (b!"unselect", .unselect),
    (b!"sort", .sort none), (b!"metadata", .metadata), (b!"metadata-server", .metadataServer), (b!"binary", .binary),
    (b!"uidplus", .uidPlus), (b!"condstore", .condStore), (b!"qresync", .qResync), (b!"utf8=accept", .utf8Accept),
    (b!"utf8=only", .utf8Only)]

theorem mem_capabilityNames [Quirks] {x : Bytes × Capability} :
    x ∈ capabilityNames ↔ x ∈ capabilityTable ∧ x.2.present = true := by
  have : capabilityNames = inBuild (capabilityTable.map fun x => (x.2.present, x)) := rfl
  rw [this, mem_inBuild]
  simp only [List.mem_map, Prod.mk.injEq]
  constructor
  · rintro ⟨y, h1, h2, rfl⟩; exact ⟨h1, h2⟩
  · rintro ⟨h1, h2⟩; exact ⟨x, h1, h2, rfl⟩

/-- What can be enabled, for all builds together. -/
def enableTable : List (Bytes × CapabilityEnable) :=
  [(b!"condstore", .condStore), (b!"metadata", .metadata), (b!"metadata-server", .metadataServer), (b!"utf8=accept", .utf8Accept),
    (b!"utf8=only", .utf8Only)]

theorem mem_enableNames [Quirks] {x : Bytes × CapabilityEnable} : x ∈ enableNames ↔ x ∈ enableTable ∧ x.2.present = true := by
  have : enableNames = inBuild (enableTable.map fun x => (x.2.present, x)) := rfl
  rw [this, mem_inBuild]
  simp only [List.mem_map, Prod.mk.injEq]
  constructor
  · rintro ⟨y, h1, h2, rfl⟩; exact ⟨h1, h2⟩
  · rintro ⟨h1, h2⟩; exact ⟨x, h1, h2, rfl⟩

/-- C28 for what can be enabled. -/
theorem C28_enable [Quirks] : Recognises enableNames .other CapabilityEnable.ofAtom := by
  intro a
  simp only [mem_enableNames, and_imp, enableTable, List.forall_mem_cons, CapabilityEnable.ofAtom, CapabilityEnable.present]
  refine ⟨⟨?_, ?_, ?_, ?_, ?_, by simp⟩, ?_⟩
  iterate 5 (intro h1 h2; simp [h1, h2])
  rintro h1 h2 h3 h4 h5 -
  rw [if_neg fun h => h1 h.1 h.2, if_neg fun h => h2 h.1 h.2, if_neg fun h => h3 h.1 h.2, if_neg fun h => h4 h.1 h.2,
    if_neg fun h => h5 h.1 h.2]

/-- C28 for sort algorithms. -/
theorem C28_sort : Recognises sortNames .other SortAlgorithm.ofAtom := by
  intro a
  simp only [sortNames, List.forall_mem_cons, SortAlgorithm.ofAtom]
  refine ⟨⟨?_, by simp⟩, ?_⟩
  all_goals (intro h; simp_all)

/-- C28 for threading algorithms. -/
theorem C28_thread : Recognises threadNames .other ThreadingAlgorithm.ofAtom := by
  intro a
  simp only [threadNames, List.forall_mem_cons, ThreadingAlgorithm.ofAtom]
  refine ⟨⟨?_, ?_, by simp⟩, ?_⟩
  all_goals (intro h; simp_all)

theorem upper_eq_of_lower {a u l : Bytes} (hu : upperAll l = u) (hl : lowerAll u = l) : (upperAll a = u) = (lowerAll a = l) := by
  subst hl
  refine propext ⟨fun e => ?_, fun e => ?_⟩
  · rw [← e, Spec.lower_upper]
  · rw [← Spec.upper_lower, e, hu]

/-- C28 for resources of quotas. -/
theorem C28_resource : Recognises resourceNames .other Resource.ofAtom := by
  intro a
  simp only [resourceNames, List.forall_mem_cons, Resource.ofAtom]
  simp only [upper_eq_of_lower (u := b!"STORAGE") (l := b!"storage") (by decide) (by decide),
    upper_eq_of_lower (u := b!"MESSAGE") (l := b!"message") (by decide) (by decide),
    upper_eq_of_lower (u := b!"MAILBOX") (l := b!"mailbox") (by decide) (by decide),
    upper_eq_of_lower (u := b!"ANNOTATION-STORAGE") (l := b!"annotation-storage") (by decide) (by decide)]
  refine ⟨⟨?_, ?_, ?_, ?_, by simp⟩, ?_⟩
  all_goals (intro h; simp_all)

/-- C28 for mechanisms. PARTIAL: two known mechanisms are missed, see `C28_negation_mechanism`. -/
theorem C28_mechanism_partial : Recognises mechanismNames .other AuthMechanism.ofAtom := by
  intro a
  simp only [mechanismNames, List.forall_mem_cons, AuthMechanism.ofAtom]
  simp only [upper_eq_of_lower (u := b!"PLAIN") (l := b!"plain") (by decide) (by decide),
    upper_eq_of_lower (u := b!"LOGIN") (l := b!"login") (by decide) (by decide),
    upper_eq_of_lower (u := b!"OAUTHBEARER") (l := b!"oauthbearer") (by decide) (by decide),
    upper_eq_of_lower (u := b!"XOAUTH2") (l := b!"xoauth2") (by decide) (by decide),
    upper_eq_of_lower (u := b!"SCRAM-SHA-1") (l := b!"scram-sha-1") (by decide) (by decide),
    upper_eq_of_lower (u := b!"SCRAM-SHA-1-PLUS") (l := b!"scram-sha-1-plus") (by decide) (by decide),
    upper_eq_of_lower (u := b!"SCRAM-SHA-256") (l := b!"scram-sha-256") (by decide) (by decide),
    upper_eq_of_lower (u := b!"SCRAM-SHA-256-PLUS") (l := b!"scram-sha-256-plus") (by decide) (by decide)]
  refine ⟨⟨?_, ?_, ?_, ?_, ?_, ?_, ?_, ?_, by simp⟩, ?_⟩
  all_goals (intro h; simp_all)

/-- The full statement of C28 for mechanisms is false: each spelling of two known mechanisms becomes `Other`. -/
theorem C28_negation_mechanism : ∀ x ∈ missedMechanismNames, x.2.name = upperAll x.1 ∧
    ∀ a, lowerAll a = x.1 → AuthMechanism.ofAtom a = .other a := by
  intro x hx
  have h2 : ∀ x ∈ missedMechanismNames, ∀ y ∈ mechanismNames, x.1 ≠ y.1 := by decide
  refine ⟨?_, fun a ha => (C28_mechanism_partial a).2 fun y hy => ha ▸ h2 x hx y hy⟩
  have h1 : ∀ x ∈ missedMechanismNames, x.2.name = upperAll x.1 := by decide
  exact h1 x hx

theorem lookup_table {α : Type} {t : List (Bytes × α)} {n : Bytes} {v : α} (hd : (t.map Prod.fst).Nodup) (h : (n, v) ∈ t) :
    t.lookup n = some v := by
  induction t with
  | nil => simp at h
  | cons x t ih =>
    simp only [List.map_cons, List.nodup_cons] at hd
    rcases List.mem_cons.1 h with rfl | h
    · simp
    · have : n ≠ x.1 := by
        rintro rfl
        exact hd.1 (List.mem_map.2 ⟨_, h, rfl⟩)
      rw [List.lookup_cons, show (n == x.1) = false by simpa using this]
      exact ih hd.2 h

theorem splitOnce_eqSign {l : Bytes} (r : Bytes) (h : 61 ∉ l) : splitOnce b!"=" (l ++ 61 :: r) = some (l, r) := by
  induction l with
  | nil => simp [splitOnce]
  | cons b l ih =>
    simp only [List.mem_cons, not_or] at h
    have : ([61] : Bytes).isPrefixOf (b :: (l ++ 61 :: r)) = false := by
      simp [List.isPrefixOf, h.1]
    simp only [List.cons_append, splitOnce, this, Bool.false_eq_true, if_false, ih h.2, Option.map_some]

theorem lower_eqSign : ∀ b : UInt8, lower b = 61 ↔ b = 61 := forall_byte (by decide)

theorem split_lower {p k : Bytes} (hk : 61 ∉ k) (h : lowerAll p = k ++ [61]) :
    ∃ l, p = l ++ [61] ∧ lowerAll l = k ∧ 61 ∉ l := by
  obtain ⟨l, e, rfl, h1, h2⟩ := List.map_eq_append_iff.1 h
  obtain ⟨b, rfl, hb⟩ := List.map_eq_singleton_iff.1 h2
  obtain rfl := (lower_eqSign b).1 hb
  refine ⟨l, rfl, h1, fun hm => hk ?_⟩
  rw [← h1]
  exact List.mem_map.2 ⟨61, hm, rfl⟩

theorem fixed_lookup_prefix {a k : Bytes} (hk : k ∈ [b!"auth=", b!"sort=", b!"thread=", b!"quota=", b!"compress="])
    (h : k <+: a) : Capability.fixed.lookup a = none := by
  cases e : Capability.fixed.lookup a with
  | none => rfl
  | some v =>
    have := lookup_mem e
    have key : ∀ k ∈ [b!"auth=", b!"sort=", b!"thread=", b!"quota=", b!"compress="], ∀ x ∈ Capability.fixed, ¬ k <+: x.1 := by decide
    exact absurd h (key k hk _ this)

/-- The conversion of an atom with a known left side. -/
theorem ofAtom_pair [Quirks] {p x k : Bytes} (hk : k ++ [61] ∈ [b!"auth=", b!"sort=", b!"thread=", b!"quota=", b!"compress="])
    (h : lowerAll p = k ++ [61]) :
    ∃ l, lowerAll l = k ∧ Capability.ofAtom (p ++ x) = (Capability.ofPair l x).getD (.other (p ++ x)) := by
  have h61 : 61 ∉ k := by
    have key : ∀ k ∈ [b!"auth=", b!"sort=", b!"thread=", b!"quota=", b!"compress="], 61 ∉ k.dropLast := by decide
    simpa using key _ hk
  obtain ⟨l, rfl, hl, hl61⟩ := split_lower h61 h
  refine ⟨l, hl, ?_⟩
  rw [Capability.ofAtom, fixed_lookup_prefix hk ⟨lowerAll x, by rw [← h, lowerAll, lowerAll, lowerAll, ← List.map_append]⟩]
  simp only [Option.filter_none, List.append_assoc, List.singleton_append, splitOnce_eqSign x hl61]

/-- C28 for capabilities: the known names without a parameter are found whatever the letter case.
PARTIAL: except for NAMESPACE, see `C28_negation_namespace`. -/
theorem C28_capability_partial [Quirks] (a : Bytes) : ∀ x ∈ capabilityNames, lowerAll a = x.1 → Capability.ofAtom a = x.2 := by
  intro x hx ha
  obtain ⟨hx, hp⟩ := mem_capabilityNames.1 hx
  by_cases hc : x.1 = b!"compress=deflate"
  · have hx : x = (b!"compress=deflate", .compressDeflate) := by
      have : ∀ x ∈ capabilityTable, x.1 = b!"compress=deflate" → x = (b!"compress=deflate", .compressDeflate) := by decide
      exact this x hx hc
    subst hx
    have ha : lowerAll a = b!"compress=" ++ b!"deflate" := ha
    obtain ⟨p, d, rfl, hp, hd⟩ := List.map_eq_append_iff.1 ha
    have hp : lowerAll p = b!"compress" ++ [61] := hp
    have hd : lowerAll d = b!"deflate" := hd
    obtain ⟨l, hl, e⟩ := ofAtom_pair (x := d) (by simp) hp
    have hat : isAtom d = true := by
      have key : ∀ b : UInt8, isAtomChar (lower b) = true → isAtomChar b = true := forall_byte (by decide)
      have hne : d ≠ [] := by rintro rfl; simp [lowerAll] at hd
      have h2 : ∀ b ∈ d, isAtomChar b = true := by
        intro b hb
        refine key b ?_
        have : lower b ∈ b!"deflate" := by rw [← hd]; exact List.mem_map.2 ⟨b, hb, rfl⟩
        have key : ∀ c ∈ b!"deflate", isAtomChar c = true := by decide
        exact key _ this
      simp [isAtom, hne]
      exact h2
    rw [e, Capability.ofPair]
    simp [hl, hd, hat]
  · have : ∀ x ∈ capabilityTable, x.1 ≠ b!"compress=deflate" → Capability.fixed.lookup x.1 = some x.2 := by decide
    rw [Capability.ofAtom, ha, this x hx hc]
    simp [Option.filter, hp]

/-- C28 for capabilities with a parameter. The resource of a quota is converted to lowercase first. -/
theorem C28_capability_parameter [Quirks] (p x : Bytes) (hx : IsAtom x) :
    (lowerAll p = b!"auth=" → Capability.ofAtom (p ++ x) = .auth (.ofAtom x)) ∧
    (lowerAll p = b!"sort=" → Capability.ofAtom (p ++ x) = .sort (some (.ofAtom x))) ∧
    (lowerAll p = b!"thread=" → Capability.ofAtom (p ++ x) = .thread (.ofAtom x)) ∧
    (lowerAll p = b!"quota=res-" → Capability.ofAtom (p ++ x) = .quotaRes (.ofAtom (lowerAll x))) := by
  have hx' := (Spec.isAtom_iff x).2 hx
  refine ⟨fun h => ?_, fun h => ?_, fun h => ?_, fun h => ?_⟩
  · obtain ⟨l, hl, e⟩ := ofAtom_pair (p := p) (x := x) (k := b!"auth") (by simp) h
    rw [e, Capability.ofPair]
    simp [hl, hx']
  · obtain ⟨l, hl, e⟩ := ofAtom_pair (p := p) (x := x) (k := b!"sort") (by simp) h
    rw [e, Capability.ofPair]
    simp [hl, hx']
  · obtain ⟨l, hl, e⟩ := ofAtom_pair (p := p) (x := x) (k := b!"thread") (by simp) h
    rw [e, Capability.ofPair]
    simp [hl, hx']
  · have h : lowerAll p = b!"quota=" ++ b!"res-" := h
    obtain ⟨p, q, rfl, hp, hq⟩ := List.map_eq_append_iff.1 h
    have hq : lowerAll q = b!"res-" := hq
    obtain ⟨l, hl, e⟩ := ofAtom_pair (p := p) (x := q ++ x) (k := b!"quota") (by simp) hp
    rw [List.append_assoc, e, Capability.ofPair]
    have e2 : lowerAll (q ++ x) = b!"res-" ++ lowerAll x := by rw [← hq, lowerAll, lowerAll, lowerAll, List.map_append]
    have hlx : isAtom (lowerAll x) = true := by
      have key : ∀ b : UInt8, isAtomChar b = true → isAtomChar (lower b) = true := forall_byte (by decide)
      simp only [isAtom, lowerAll, Bool.and_eq_true, Bool.not_eq_true', List.isEmpty_eq_false_iff, ne_eq, List.map_eq_nil_iff,
        List.all_eq_true, List.mem_map, forall_exists_index, and_imp, forall_apply_eq_imp_iff₂] at hx' ⊢
      exact ⟨hx'.1, fun b hb => key b (hx'.2 b hb)⟩
    rw [e2, splitOnce_hit]
    simp [hl, hlx]

/-- C28 for capabilities: no known capability becomes `Other`, and all unknown ones do.
PARTIAL: except for NAMESPACE and atoms that start with `QUOTA=`, see `C28_negation_quota`. -/
theorem C28_capability_other_partial [Quirks] (a : Bytes) (ha : IsAtom a) (hq : ¬ b!"quota=" <+: lowerAll a) :
    Capability.ofAtom a = .other a ↔ (∀ x ∈ capabilityNames, lowerAll a ≠ x.1) ∧
      ¬ ∃ p x, a = p ++ x ∧ IsAtom x ∧ lowerAll p ∈ [b!"auth=", b!"sort=", b!"thread="] := by
  constructor
  · intro h
    refine ⟨fun x hx e => ?_, ?_⟩
    · have h2 := C28_capability_partial a x hx e
      have key : ∀ x ∈ capabilityTable, x.2 ≠ .other x.2.name := by decide
      have := key x (mem_capabilityNames.1 hx).1
      rw [← h2, h] at this
      exact this rfl
    · rintro ⟨p, x, rfl, hx, hp⟩
      obtain ⟨h1, h2, h3, -⟩ := C28_capability_parameter p x hx
      simp only [List.mem_cons, List.not_mem_nil, or_false] at hp
      rcases hp with hp | hp | hp
      · rw [h1 hp] at h; cases h
      · rw [h2 hp] at h; cases h
      · rw [h3 hp] at h; cases h
  · rintro ⟨h1, h2⟩
    rw [Capability.ofAtom]
    cases e : (Capability.fixed.lookup (lowerAll a)).filter Capability.present with
    | some c =>
      have key : ∀ x ∈ Capability.fixed, x ∈ capabilityTable := by decide
      simp only [Option.filter_eq_some_iff] at e
      exact absurd rfl (h1 _ (mem_capabilityNames.2 ⟨key _ (lookup_mem e.1), e.2⟩))
    | none =>
      cases e2 : splitOnce b!"=" a with
      | none => rfl
      | some lr =>
        obtain ⟨l, r⟩ := lr
        have e3 := splitOnce_eq e2
        have e4 : lowerAll a = lowerAll l ++ b!"=" ++ lowerAll r := by
          rw [e3]; simp [lowerAll, lower]
        have lo : lowerAll (l ++ b!"=") = lowerAll l ++ b!"=" := by simp [lowerAll, lower]
        have key : ∀ k, k ++ b!"=" ∈ [b!"auth=", b!"sort=", b!"thread="] → lowerAll l = k → isAtom r = false := by
          intro k hk hl
          by_contra hr
          refine h2 ⟨l ++ b!"=", r, e3, (Spec.isAtom_iff r).1 (by simpa using hr), ?_⟩
          rw [lo, hl]
          exact hk
        have : Capability.ofPair l r = none := by
          rw [Capability.ofPair]
          by_cases h3 : lowerAll l = b!"auth"
          · simp [h3, key b!"auth" (by simp) h3]
          by_cases h4 : lowerAll l = b!"compress"
          · have h5 : lowerAll r ≠ b!"deflate" := by
              intro h5
              refine h1 (b!"compress=deflate", .compressDeflate) (by simp [capabilityNames, inBuild]) ?_
              rw [e4, h4, h5]
              rfl
            simp [h4, h5]
          by_cases h5 : lowerAll l = b!"quota"
          · exact absurd ⟨lowerAll r, by rw [e4, h5]; rfl⟩ hq
          by_cases h6 : lowerAll l = b!"sort"
          · simp [h6, key b!"sort" (by simp) h6]
          by_cases h7 : lowerAll l = b!"thread"
          · simp [h7, key b!"thread" (by simp) h7]
          simp [h3, h4, h5, h6, h7]
        simp [this]

/-- The full statement of C28 for capabilities is false: NAMESPACE becomes `Other`. -/
theorem C28_negation_namespace [Quirks] : Capability.name .namespace_ = b!"NAMESPACE" ∧
    ∀ a, lowerAll a = b!"namespace" → Capability.ofAtom a = .other a := by
  refine ⟨rfl, fun a h => ?_⟩
  have hs : splitOnce b!"=" a = none := by
    cases e : splitOnce b!"=" a with
    | none => rfl
    | some lr =>
      have e3 := splitOnce_eq (l := lr.1) (r := lr.2) e
      have : (61 : UInt8) ∈ b!"namespace" := by
        rw [← h, e3]
        simp [lowerAll, lower]
      exact absurd this (by decide)
  have hl : Capability.fixed.lookup (lowerAll a) = none := by rw [h]; decide
  rw [Capability.ofAtom, hl, hs, Option.filter_none]

/-- The full statement of C28 for capabilities is false: an unknown capability is taken for a quota of a resource, and the name of an
unknown resource is changed. -/
theorem C28_negation_quota [Quirks] : Capability.ofAtom b!"QUOTA=X-RES-STORAGE" = .quotaRes .storage ∧
    Capability.ofAtom b!"QUOTA=RES-X-Foo" = .quotaRes (.other b!"x-foo") := ⟨rfl, rfl⟩

/-- C28: the printed form of each known value is converted back to this value. -/
theorem C28_printed [Quirks] :
    (∀ x ∈ mechanismNames, AuthMechanism.ofAtom x.2.name = x.2) ∧ (∀ x ∈ enableNames, CapabilityEnable.ofAtom x.2.name = x.2) ∧
    (∀ x ∈ resourceNames, Resource.ofAtom x.2.name = x.2) ∧ (∀ x ∈ sortNames, SortAlgorithm.ofAtom x.2.name = x.2) ∧
    (∀ x ∈ threadNames, ThreadingAlgorithm.ofAtom x.2.name = x.2) ∧
    (∀ x ∈ capabilityNames, Capability.ofAtom x.2.name = x.2) ∧
    (∀ x ∈ flagNames, Flag.tryFrom (bytes x.2.enc) = .ok x.2) := by
  refine ⟨by decide, fun x hx => ?_, by decide, by decide, by decide, fun x hx => ?_, by decide⟩
  · have key : ∀ x ∈ enableTable, lowerAll x.2.name = x.1 := by decide
    exact (C28_enable _).1 x hx (key x (mem_enableNames.1 hx).1)
  · have key : ∀ x ∈ capabilityTable, lowerAll x.2.name = x.1 := by decide
    exact C28_capability_partial _ x hx (key x (mem_capabilityNames.1 hx).1)

/-- C28 for `TryFrom<&str> for Flag`: `\` makes a system flag, otherwise it is a keyword. -/
theorem C28_flagTryFrom (a : Bytes) (h : IsAtom a) :
    Flag.tryFrom (92 :: a) = .ok (Flag.system a) ∧ (Flag.tryFrom a = .ok (.keyword a)) := by
  have h1 := (C25_atom.2 a).1 h
  constructor
  · simp only [Flag.tryFrom, h1]; rfl
  · cases a with
    | nil => exact absurd rfl h.1
    | cons b a =>
      have : b ≠ 92 := by
        rintro rfl
        exact absurd (h.2 92 (by simp)) (by decide)
      unfold Flag.tryFrom
      split
      · rename_i e
        cases e
        exact absurd rfl this
      · rw [h1]; rfl

end Imap

/-! ### Concrete cases -/

namespace Imap.NamesExamples

open Imap Imap.Spec

example : Flag.system b!"SeEn" = .seen := (C28_flag _).1 (b!"seen", .seen) (by decide) (by decide)
example : Flag.system b!"Recent" = .extension b!"Recent" := (C28_flag _).2 (by decide)
example : FlagNameAttribute.ofAtom b!"NoSelect" = .noselect := (C28_attribute _).1 (b!"noselect", .noselect) (by decide) (by decide)
example : AuthMechanism.ofAtom b!"xoauth2" = .xOAuth2 := (C28_mechanism_partial _).1 (b!"xoauth2", .xOAuth2) (by decide) (by decide)
example : AuthMechanism.ofAtom b!"Scram-SHA3-512" = .other b!"Scram-SHA3-512" :=
  (C28_negation_mechanism (b!"scram-sha3-512", .scramSha3_512) (by decide)).2 _ (by decide)
example [Quirks] : Capability.ofAtom b!"Compress=Deflate" = .compressDeflate :=
  C28_capability_partial _ (b!"compress=deflate", .compressDeflate) (by simp [capabilityNames, inBuild]) (by decide)
example [Quirks] : Capability.ofAtom (b!"Auth=" ++ b!"plain") = .auth .plain := (C28_capability_parameter _ _ (by decide)).1 (by decide)
example [Quirks] : Capability.ofAtom b!"X-FOO" = .other b!"X-FOO" := rfl
example : IsAtom b!"X=1" ∧ ¬ b!"quota=" <+: lowerAll b!"X=1" := by decide

end Imap.NamesExamples
