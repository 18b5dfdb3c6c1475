import Verif.SeqTextSpec
import Verif.Props.Numbers
import Verif.Props.Strings
/-!
Theorems about sequence sets as text: C39.
-/
set_option maxRecDepth 10000
namespace Imap
open Spec

theorem splitBy_of_not_mem {sep : UInt8} {x : Bytes} (h : sep ∉ x) : splitBy sep x = [x] := by
  induction x with
  | nil => rfl
  | cons b x ih =>
    simp only [List.mem_cons, not_or] at h
    simp [splitBy, Ne.symm h.1, ih h.2]

theorem splitBy_append {sep : UInt8} {p : Bytes} (x : Bytes) (h : sep ∉ p) :
    splitBy sep (p ++ sep :: x) = p :: splitBy sep x := by
  induction p with
  | nil => simp [splitBy]
  | cons b p ih =>
    simp only [List.mem_cons, not_or] at h
    simp [splitBy, Ne.symm h.1, ih h.2]

theorem splitBy_ne_nil (sep : UInt8) (x : Bytes) : splitBy sep x ≠ [] := by
  cases x with
  | nil => simp [splitBy]
  | cons b x =>
    simp only [splitBy]
    split
    · simp
    · split <;> simp

/-- The loop of `u32::from_str` fails exactly if there is no numeral or its value does not fit. -/
theorem u32Loop_iff (acc : Nat) (bs : Bytes) (n : Nat) (ha : acc ≤ u32Max) :
    u32Loop acc bs = some n ↔ (∀ b ∈ bs, Digit b) ∧ n = acc * 10 ^ bs.length + Spec.value bs ∧ n ≤ u32Max := by
  induction bs generalizing acc with
  | nil =>
    simp only [u32Loop, Option.some.injEq, List.not_mem_nil, false_implies, implies_true, true_and, List.length_nil, Nat.pow_zero,
      Nat.mul_one, Spec.value, Nat.add_zero]
    omega
  | cons b bs ih =>
    have e : acc * 10 ^ (bs.length + 1) + ((b.toNat - 48) * 10 ^ bs.length + Spec.value bs) =
        (acc * 10 + digitVal b) * 10 ^ bs.length + Spec.value bs := by
      simp only [digitVal, Nat.pow_succ, Nat.add_mul, Nat.mul_assoc, Nat.add_assoc, Nat.mul_comm 10]
    have hp : 0 < 10 ^ bs.length := Nat.pow_pos (by decide)
    simp only [u32Loop, List.mem_cons, forall_eq_or_imp, List.length_cons, Spec.value, e, digit_iff b]
    split
    · next h =>
      rw [ih _ h.2.2]
      simp [h.1]
    · next h =>
      simp only [reduceCtorEq, false_iff]
      rintro ⟨⟨hb, -⟩, hn, hle⟩
      refine h ⟨hb, ?_⟩
      have : acc * 10 + digitVal b ≤ (acc * 10 + digitVal b) * 10 ^ bs.length := Nat.le_mul_of_pos_right _ hp
      omega

theorem u32FromStr_iff (s : Bytes) (n : Nat) :
    u32FromStr s = some n ↔ (Numeral s ∨ ∃ ds, s = 43 :: ds ∧ Numeral ds ∧ Spec.value ds = n) ∧
      (Numeral s → Spec.value s = n) ∧ n ≤ u32Max := by
  have plus : ∀ ds, ¬ Numeral (43 :: ds) := by
    intro ds h
    have := h.2 43 (by simp)
    simp [Digit] at this
  cases s with
  | nil => simp [u32FromStr, Numeral]
  | cons b bs =>
    by_cases hb : b = 43
    · subst hb
      simp only [u32FromStr, if_true, plus, false_or, false_implies, true_and]
      cases bs with
      | nil => simp [Numeral]
      | cons c cs =>
        simp only [List.isEmpty_cons, Bool.false_eq_true, if_false, u32Loop_iff _ _ _ (Nat.zero_le _), List.cons.injEq, true_and,
          Nat.zero_mul, Nat.zero_add, exists_eq_left', Numeral, ne_eq, reduceCtorEq, not_false_eq_true]
        constructor
        · rintro ⟨h1, h2, h3⟩; exact ⟨⟨h1, h2.symm⟩, h3⟩
        · rintro ⟨⟨h1, h2⟩, h3⟩; exact ⟨h1, h2.symm, h3⟩
    · have e : u32FromStr (b :: bs) = u32Loop 0 (b :: bs) := if_neg hb
      simp only [e, u32Loop_iff 0 (b :: bs) n (Nat.zero_le _), Nat.zero_mul, Nat.zero_add, List.cons.injEq, hb, false_and,
        exists_false, or_false, Numeral, ne_eq, reduceCtorEq, not_false_eq_true, true_and]
      constructor
      · rintro ⟨h1, h2, h3⟩; exact ⟨h1, fun _ => h2.symm, h3⟩
      · rintro ⟨h1, h2, h3⟩; exact ⟨h1, (h2 h1).symm, h3⟩

theorem numeral_head_value {ds : Bytes} (h : Numeral ds) (h0 : ds.head? ≠ some 48) : 1 ≤ Spec.value ds := by
  obtain ⟨hne, hd⟩ := h
  cases ds with
  | nil => exact absurd rfl hne
  | cons d ds =>
    have hb := hd d (by simp)
    have hd48 : d.toNat ≠ 48 := by
      intro e
      apply h0
      have : d = 48 := UInt8.toNat_inj.1 (by simpa using e)
      simp [this]
    have hp : 0 < 10 ^ ds.length := Nat.pow_pos (by decide)
    have : 1 ≤ d.toNat - 48 := by have := hb.1; omega
    have := Nat.mul_le_mul this (Nat.succ_le_of_lt hp)
    simp only [Spec.value]
    omega

/-- C39: which texts are accepted as a message number. -/
theorem C39_number (t : Bytes) (a : SeqOrUid) : SeqOrUid.fromStr t = some a ↔ TextNum t a := by
  constructor
  · intro h
    unfold SeqOrUid.fromStr at h
    split at h
    · next ht =>
      cases h
      subst ht
      exact .rfc .star
    · split at h
      · cases h
      · next h0 =>
        simp only [Option.map_eq_some_iff] at h
        obtain ⟨n, hn, rfl⟩ := h
        unfold nzFromStr at hn
        have hn' : u32FromStr t = some n ∧ n ≠ 0 := by
          split at hn
          · cases hn
          · next hx =>
            refine ⟨hn, ?_⟩
            rintro rfl
            exact hx hn
        obtain ⟨h1, h2, h3⟩ := (u32FromStr_iff t n).1 hn'.1
        have hlt : n < 2 ^ 32 := by unfold u32Max at h3; omega
        rcases h1 with h1 | ⟨ds, rfl, h1, h4⟩
        · exact .rfc (.num h1 h0 (h2 h1) hlt)
        · exact .plus h1 h4 (by omega) hlt
  · have star : ∀ ds, Numeral ds → ds ≠ b!"*" := by
      rintro ds h rfl
      have := h.2 42 (by simp)
      simp [Digit] at this
    rintro (⟨⟨⟩ | ⟨hd, h0, rfl, hn⟩⟩ | ⟨hd, rfl, h1, hn⟩)
    · rfl
    · have h1 := numeral_head_value hd h0
      have : u32FromStr t = some (Spec.value t) := (u32FromStr_iff _ _).2 ⟨.inl hd, fun _ => rfl, by unfold u32Max; omega⟩
      simp only [SeqOrUid.fromStr, if_neg (star _ hd), if_neg h0, nzFromStr, this]
      split
      · next e => simp at e; omega
      · rfl
    · next ds =>
      have hns : ¬ Numeral (43 :: ds) := by
        intro h
        have := h.2 43 (by simp)
        simp [Digit] at this
      have : u32FromStr (43 :: ds) = some (Spec.value ds) :=
        (u32FromStr_iff _ _).2 ⟨.inr ⟨ds, rfl, hd, rfl⟩, fun h => absurd h hns, by unfold u32Max; omega⟩
      simp only [SeqOrUid.fromStr, List.cons.injEq, nzFromStr, this]
      simp only [List.head?_cons, Option.some.injEq]
      rw [if_neg (by simp), if_neg (by decide)]
      split
      · next e => simp at e; omega
      · rfl

/-- No separator occurs in a number. -/
theorem Spec.TextNum.plain {t a} (h : TextNum t a) : 58 ∉ t ∧ 44 ∉ t := by
  have nm : ∀ ds, Numeral ds → 58 ∉ ds ∧ 44 ∉ ds := by
    intro ds h
    constructor <;> intro hm <;> have := h.2 _ hm <;> simp [Digit] at this
  rcases h with ⟨⟨⟩ | ⟨hd, -, -, -⟩⟩ | ⟨hd, -, -, -⟩
  · decide
  · exact nm _ hd
  · simpa using nm _ hd

/-- C39: which texts are accepted as an element. -/
theorem C39_element (t : Bytes) (q : Sequence) : Sequence.fromStr t = some q ↔ TextElem TextNum t q := by
  constructor
  · intro h
    by_cases hc : 58 ∈ t
    · obtain ⟨x, y, rfl, hx⟩ := List.eq_append_cons_of_mem hc
      by_cases hy : 58 ∈ y
      · obtain ⟨y, z, rfl, hy'⟩ := List.eq_append_cons_of_mem hy
        have hz := splitBy_ne_nil 58 z
        simp only [Sequence.fromStr, splitBy_append _ hx, splitBy_append _ hy'] at h
        cases hzz : splitBy 58 z with
        | nil => exact absurd hzz hz
        | cons _ _ => rw [hzz] at h; cases h
      · simp only [Sequence.fromStr, splitBy_append _ hx, splitBy_of_not_mem hy, Option.bind_eq_bind, Option.bind_eq_some_iff, C39_number,
          Option.pure_def, Option.some.injEq] at h
        obtain ⟨a, ha, b, hb, rfl⟩ := h
        exact .range ha hb
    · simp only [Sequence.fromStr, splitBy_of_not_mem hc, Option.bind_eq_bind, Option.bind_eq_some_iff, C39_number,
          Option.pure_def, Option.some.injEq] at h
      obtain ⟨a, ha, rfl⟩ := h
      exact .single ha
  · rintro (⟨ha⟩ | ⟨ha, hb⟩)
    · simp [Sequence.fromStr, splitBy_of_not_mem ha.plain.1, (C39_number _ _).2 ha]
    · simp [Sequence.fromStr, splitBy_append _ ha.plain.1, splitBy_of_not_mem hb.plain.1, (C39_number _ _).2 ha, (C39_number _ _).2 hb]

theorem Spec.TextElem.plain {t q} (h : TextElem TextNum t q) : 44 ∉ t := by
  cases h with
  | single ha => exact ha.plain.2
  | range ha hb => simp [ha.plain.2, hb.plain.2]

/-- C39: which texts are accepted as a sequence set, and what they mean. -/
theorem C39_set (t : Bytes) (s : SequenceSet) : SequenceSet.fromStr t = some s ↔ TextSet TextNum t s := by
  have key : ∀ n t s, t.length ≤ n → (sequencesFromStr (splitBy 44 t) = some s ↔ TextSet TextNum t s) := by
    intro n
    induction n with
    | zero =>
      intro t s hn
      have : t = [] := List.length_eq_zero_iff.1 (by omega)
      subst this
      constructor
      · intro h; cases h
      · intro h
        generalize hx : ([] : Bytes) = x at h
        cases h with
        | one he =>
          subst hx
          rw [← C39_element] at he
          cases he
        | more _ _ => simp at hx
    | succ n ih =>
      intro t s hn
      constructor
      · intro h
        by_cases hc : 44 ∈ t
        · obtain ⟨x, y, rfl, hx⟩ := List.eq_append_cons_of_mem hc
          simp only [splitBy_append _ hx, sequencesFromStr, Option.bind_eq_bind, Option.bind_eq_some_iff, C39_element,
            Option.pure_def, Option.some.injEq] at h
          obtain ⟨q, hq, s, hs, rfl⟩ := h
          simp only [List.length_append, List.length_cons] at hn
          exact .more hq ((ih y s (by omega)).1 hs)
        · simp only [splitBy_of_not_mem hc, sequencesFromStr, Option.bind_eq_bind, Option.bind_eq_some_iff, C39_element,
            Option.pure_def, Option.some.injEq] at h
          obtain ⟨q, hq, _, rfl, rfl⟩ := h
          exact .one hq
      · intro h
        cases h with
        | one hq => simp [splitBy_of_not_mem hq.plain, sequencesFromStr, (C39_element _ _).2 hq]
        | @more t q u s hq hs =>
          simp only [List.length_append, List.length_cons] at hn
          simp [splitBy_append _ hq.plain, sequencesFromStr, (C39_element _ _).2 hq, (ih u s (by omega)).2 hs]
  have ne : ∀ s, TextSet TextNum t s → s.isEmpty = false := by
    intro s h; cases h <;> rfl
  simp only [SequenceSet.fromStr, Option.bind_eq_bind, Option.bind_eq_some_iff, key t.length t _ (Nat.le_refl _)]
  constructor
  · rintro ⟨s', h1, h2⟩
    simp [ne _ h1] at h2
    exact h2 ▸ h1
  · intro h
    exact ⟨s, h, by simp [ne _ h]⟩

/-! ### The wire decoder -/

theorem seqNumber_wire {x r : Bytes} {a : SeqOrUid} (h : seqNumber x = .ok r a) : ∃ t, x = t ++ r ∧ WireNum t a := by
  rcases exists_of_alt2 h with h | h
  · simp only [P.map_apply, Res.andThen_eq_ok] at h
    obtain ⟨r', n, hn, e⟩ := h
    cases e
    obtain ⟨ds, rfl, h1, -, rfl, h2, h3⟩ := C31_decoded.2.2.1 hn
    exact ⟨ds, rfl, .num h1 rfl h2 h3⟩
  · simp only [value, P.bind_apply, P.pure_apply, Res.andThen_eq_ok] at h
    obtain ⟨r', n, hn, e⟩ := h
    cases e
    exact ⟨_, exists_of_tag hn, .star⟩

/-- One element of a sequence set on the wire (imap-codec/src/sequence.rs:37-46). -/
abbrev wireElem : P Sequence := alt [(fun r => Sequence.range r.1 r.2) <$> seqRange, .single <$> seqNumber]

theorem wireElem_wire {x r : Bytes} {q : Sequence} (h : wireElem x = .ok r q) : ∃ t, x = t ++ r ∧ TextElem WireNum t q := by
  rcases exists_of_alt2 h with h | h
  · simp only [P.map_apply, seqRange, P.bind_apply, P.pure_apply, Res.andThen_eq_ok] at h
    obtain ⟨r', _, ⟨r1, a, h1, r2, _, h2, r3, b, h3, e⟩, e'⟩ := h
    cases e
    cases e'
    obtain ⟨t, rfl, ha⟩ := seqNumber_wire h1
    have := exists_of_tag h2
    subst this
    obtain ⟨u, rfl, hb⟩ := seqNumber_wire h3
    exact ⟨t ++ 58 :: u, by simp, .range ha hb⟩
  · simp only [P.map_apply, Res.andThen_eq_ok] at h
    obtain ⟨r', a, hn, e⟩ := h
    cases e
    obtain ⟨t, rfl, ha⟩ := seqNumber_wire hn
    exact ⟨t, rfl, .single ha⟩

theorem many0_wire (x : Bytes) : ∀ r s, many0 (do tag b!","; wireElem : P Sequence) x = .ok r s →
    (x = r ∧ s = []) ∨ ∃ t, x = 44 :: t ++ r ∧ TextSet WireNum t s := by
  fun_induction Imap.many0 (do tag b!","; wireElem : P Sequence) x with
  | case1 i r v e hl ih =>
    intro r' vs h1
    obtain ⟨i', w, h2, h3⟩ := Res.andThen_eq_ok.1 h1
    cases h3
    simp only [P.bind_apply, Res.andThen_eq_ok] at e
    obtain ⟨r1, _, e1, e2⟩ := e
    have := exists_of_tag e1
    subst this
    obtain ⟨t, rfl, hq⟩ := wireElem_wire e2
    right
    rcases ih _ _ h2 with ⟨rfl, rfl⟩ | ⟨u, rfl, hu⟩
    · exact ⟨t, by simp, .one hq⟩
    · exact ⟨t ++ 44 :: u, by simp, .more hq hu⟩
  | case2 => simp
  | case3 i e =>
    intro r' vs h1
    cases h1
    exact .inl ⟨rfl, rfl⟩
  | case4 => simp
  | case5 => simp

theorem sequenceSet_wire {x r : Bytes} {s : SequenceSet} (h : sequenceSet x = .ok r s) : ∃ t, x = t ++ r ∧ TextSet WireNum t s := by
  simp only [sequenceSet, sepList1, P.bind_apply, P.pure_apply, Res.andThen_eq_ok] at h
  obtain ⟨r1, q, h1, r2, vs, h2, e⟩ := h
  cases e
  obtain ⟨t, rfl, hq⟩ := wireElem_wire h1
  rcases many0_wire _ _ _ h2 with ⟨rfl, rfl⟩ | ⟨u, rfl, hu⟩
  · exact ⟨t, rfl, .one hq⟩
  · exact ⟨t ++ 44 :: u, by simp, .more hq hu⟩

theorem seqNumber_of_wire {t r : Bytes} {a : SeqOrUid} (h : WireNum t a) (hr : NextIsNoDigit r) : seqNumber (t ++ r) = .ok r a := by
  cases h with
  | star => rfl
  | num hd hv h1 h2 =>
    subst hv
    have := (C31_nzNumber hd hr).trans (if_pos ⟨h1, h2⟩)
    simp [seqNumber, orElse, this]

theorem wireElem_of_wire {t r : Bytes} {q : Sequence} (h : TextElem WireNum t q) (hr : NextIsNoDigit r) (hc : r.head? ≠ some 58) :
    wireElem (t ++ r) = .ok r q := by
  cases h with
  | single ha =>
    have : tag b!":" r = .error := by
      obtain ⟨b, bs, rfl, hb⟩ := hr
      have : b ≠ 58 := by simpa using hc
      simp [tag, Ne.symm this]
    simp [wireElem, seqRange, orElse, seqNumber_of_wire ha hr, this]
  | range ha hb =>
    have h1 := fun r => seqNumber_of_wire (r := 58 :: r) ha ⟨58, r, rfl, by simp [Digit]⟩
    simp [wireElem, seqRange, orElse, h1, seqNumber_of_wire hb hr, tag]

theorem sequenceSet_of_wire {t r : Bytes} {s : SequenceSet} (h : TextSet WireNum t s) (hr : NextEndsSet r) :
    sequenceSet (t ++ r) = .ok r s := by
  have key : ∀ {t s}, TextSet WireNum t s → sequenceSet (t ++ r) = .ok r s ∧
      many0 (do tag b!","; wireElem : P Sequence) (44 :: t ++ r) = .ok r s := by
    intro t s h
    have head : ∀ {t q r' s}, TextElem WireNum t q → NextIsNoDigit r' → r'.head? ≠ some 58 → r.length ≤ r'.length →
        many0 (do tag b!","; wireElem : P Sequence) r' = .ok r s → sequenceSet (t ++ r') = .ok r (q :: s) ∧
        many0 (do tag b!","; wireElem : P Sequence) (44 :: t ++ r') = .ok r (q :: s) := by
      intro t q r' s hq h1 h2 hl h3
      have e := wireElem_of_wire hq h1 h2
      constructor
      · show (sepList1 (tag b!",") wireElem) _ = _
        simp only [sepList1, P.bind_apply, e, Res.andThen_ok, h3, P.pure_apply]
      · have e' : (do tag b!","; wireElem : P Sequence) (44 :: t ++ r') = .ok r' q := by
          simp only [List.cons_append, P.bind_apply, tag, if_true, Res.andThen_ok, e]
        rw [many0_step e' (by simp; omega), h3]
        rfl
    induction h with
    | one hq =>
      obtain ⟨b, bs, hb, h1, h2, h3⟩ := hr
      refine head hq ⟨b, bs, hb, h1⟩ (by simp [hb, h2]) (Nat.le_refl _) (many0_stop ?_)
      simp [hb, tag, Ne.symm h3]
    | @more t q u s hq hs ih =>
      have := head (r' := 44 :: u ++ r) hq ⟨44, _, rfl, by simp [Digit]⟩ (by simp) (by simp; omega) ih.2
      simpa using this
  exact (key h).1

/-- C39: which texts the wire decoder accepts as a sequence set. -/
theorem C39_wire (t rest : Bytes) (s : SequenceSet) (h : NextEndsSet rest) :
    sequenceSet (t ++ rest) = .ok rest s ↔ TextSet WireNum t s := by
  refine ⟨fun e => ?_, fun e => sequenceSet_of_wire e h⟩
  obtain ⟨t', e', ht⟩ := sequenceSet_wire e
  rwa [List.append_cancel_right e']

theorem Spec.TextSet.mono {N M : Bytes → SeqOrUid → Prop} {t s} (h : TextSet N t s) (hm : ∀ u a, (∀ b ∈ u, b ∈ t) → N u a → M u a) :
    TextSet M t s := by
  have elem : ∀ {t q}, TextElem N t q → (∀ u a, (∀ b ∈ u, b ∈ t) → N u a → M u a) → TextElem M t q := by
    intro t q h hm
    cases h with
    | single ha => exact .single (hm _ _ (fun _ h => h) ha)
    | range ha hb => exact .range (hm _ _ (fun _ h => by simp [h]) ha) (hm _ _ (fun _ h => by simp [h]) hb)
  induction h with
  | one hq => exact .one (elem hq hm)
  | more hq _ ih =>
    exact .more (elem hq fun u a h => hm u a fun b hb => by simp [h b hb]) (ih fun u a h => hm u a fun b hb => by simp [h b hb])

theorem Spec.WireNum.no_plus {t a} (h : WireNum t a) : 43 ∉ t := by
  cases h with
  | star => decide
  | num hd _ _ _ =>
    intro hm
    have := hd.2 _ hm
    simp [Digit] at this

theorem Spec.TextSet.no_plus {t s} (h : TextSet WireNum t s) : 43 ∉ t := by
  have elem : ∀ {t q}, TextElem WireNum t q → 43 ∉ t := by
    intro t q h
    cases h with
    | single ha => exact ha.no_plus
    | range ha hb => simp [ha.no_plus, hb.no_plus]
  induction h with
  | one hq => exact elem hq
  | more hq _ ih => simp [elem hq, ih]

/-- C39: parsing a string and decoding from the wire agree exactly on the texts of RFC 3501. Each of them accepts more
texts, see `C39_fails_plus` and `C39_fails_zero`. -/
theorem C39_agree_partial (t rest : Bytes) (s : SequenceSet) (h : NextEndsSet rest) :
    (SequenceSet.fromStr t = some s ∧ sequenceSet (t ++ rest) = .ok rest s) ↔ TextSet RfcNum t s := by
  rw [C39_wire t rest s h, C39_set]
  constructor
  · rintro ⟨h1, h2⟩
    have := h2.no_plus
    refine h1.mono fun u a hu hn => ?_
    rcases hn with hn | ⟨_, _, _, _⟩
    · exact hn
    · exact absurd (hu 43 (by simp)) this
  · intro h
    refine ⟨h.mono fun _ _ _ h => .rfc h, h.mono fun _ _ _ h => ?_⟩
    cases h with
    | star => exact .star
    | num hd h0 hv hn => exact .num hd hv (hv ▸ numeral_head_value hd h0) hn

/-- C39 fails: a string may contain a plus sign, which the wire decoder rejects. -/
theorem C39_fails_plus : ∃ t s, SequenceSet.fromStr t = some s ∧ sequenceSet (t ++ b!"\r\n") = .error ∧
    @Codec.decode Quirks.default .command (b!"A1 UID EXPUNGE " ++ t ++ b!"\r\n") = .failed :=
  ⟨b!"+5", [.single (.value 5)], by decide, by rfl, by rfl⟩

/-- C39 fails: on the wire a number may have leading zeros, which are rejected in a string. -/
theorem C39_fails_zero : ∃ t s, SequenceSet.fromStr t = none ∧ sequenceSet (t ++ b!"\r\n") = .ok b!"\r\n" s :=
  ⟨b!"05", [.single (.value 5)], by decide, by with_unfolding_all rfl⟩

/-- C39: a command whose sequence set is written as the wire decoder accepts it is decoded with the set that the text
stands for. -/
theorem C39_command [Quirks] (t rest : Bytes) (s : SequenceSet) (h : TextSet WireNum t s) :
    Codec.command.decode (b!"A1 UID EXPUNGE " ++ t ++ b!"\r\n" ++ rest) = .ok rest (⟨b!"A1", .expungeUid s⟩ : Command) := by
  have e : ∀ r, sequenceSet (t ++ 13 :: r) = .ok (13 :: r) s :=
    fun r => sequenceSet_of_wire h ⟨13, r, rfl, by simp [Digit], by decide, by decide⟩
  have e1 : tagImap (b!"A1 UID EXPUNGE " ++ t ++ b!"\r\n" ++ rest) = .ok (b!" UID EXPUNGE " ++ (t ++ 13 :: 10 :: rest)) b!"A1" := by
    have := rt_tagImap (s := b!"A1") (r := b!" UID EXPUNGE " ++ (t ++ 13 :: 10 :: rest)) rfl rfl
    simpa using this
  have e2 : alt [commandAny, commandAuth, commandNonauth, commandSelect] (b!"UID EXPUNGE " ++ (t ++ 13 :: 10 :: rest)) = .ok (13 :: 10 :: rest) (.expungeUid s) := by
    alt_at 3
    rw [commandSelect]
    alt_at 3
    simp [uidExpunge, tagNC, e]
  show outcomeCommand (command _) = _
  have e3 : command (b!"A1 UID EXPUNGE " ++ t ++ b!"\r\n" ++ rest) = .ok rest ⟨b!"A1", .expungeUid s⟩ := by
    have e4 : ∀ r, sp (32 :: r) = .ok r () := fun r => rfl
    have e5 : commandBody (b!"UID EXPUNGE " ++ (t ++ 13 :: 10 :: rest)) = .ok rest (.expungeUid s) := by
      simp only [commandBody, P.bind_apply]
      rw [e2]
      simp [rt_crlf]
    rw [command, P.bind_apply, e1, Res.andThen_ok, P.bind_apply, List.cons_append, e4, Res.andThen_ok, P.bind_apply, e5]
    rfl
  rw [e3]
  rfl

/-- The text is unique: a text has at most one reading. -/
theorem Spec.TextSet.unique {t s s'} (h : TextSet TextNum t s) (h' : TextSet TextNum t s') : s = s' := by
  rw [← C39_set] at h h'
  exact Option.some.inj (h.symm.trans h')

theorem rfcNum_enc {a : SeqOrUid} (h : a.wf = true) : RfcNum (bytes a.enc) a := by
  cases a with
  | asterisk => exact .star
  | value n =>
    have hn := nonZero_of_wf h
    obtain ⟨h1, h2, h3⟩ := C31_print n
    have e : bytes (SeqOrUid.enc (.value n)) = showNat n := by simp [SeqOrUid.enc]
    rw [e]
    exact .num h1 (fun e => by have := (h3 e).1; omega) h2 hn.2

/-- C39: what the encoder writes for a sequence set is a text of RFC 3501 and reads as the set that was written. -/
theorem C39_print [Quirks] (s : SequenceSet) (h : s.wf = true) :
    TextSet RfcNum (bytes (encSet s)) (normSet s) ∧ SequenceSet.fromStr (bytes (encSet s)) = some (normSet s) := by
  have key : TextSet RfcNum (bytes (encSet s)) (normSet s) := by
    have hw := normSet_wf h
    have hf := normSet_fixed h
    simp only [SequenceSet.wf, Bool.and_eq_true, Bool.not_eq_true', List.isEmpty_eq_false_iff, List.all_eq_true] at hw
    have elem : ∀ q : Sequence, q.wf = true → (if Quirks.alwaysNormalizeSequenceSets then q.normalize else q) = q →
        TextElem RfcNum (bytes q.enc) q := by
      intro q hq hn
      unfold Sequence.enc
      rw [hn]
      cases q with
      | single a => exact .single (rfcNum_enc hq)
      | range a b =>
        simp only [Sequence.wf, Bool.and_eq_true] at hq
        simpa using TextElem.range (rfcNum_enc hq.1) (rfcNum_enc hq.2)
    unfold encSet
    generalize normSet s = l at *
    obtain ⟨hne, hw⟩ := hw
    induction l with
    | nil => exact absurd rfl hne
    | cons q l ih =>
      have hq := elem q (hw q (by simp)) (hf q (by simp))
      cases l with
      | nil => simpa [join] using TextSet.one hq
      | cons q' l =>
        have := ih (fun q h => hf q (by simp [h])) (by simp) (fun q h => hw q (by simp [h]))
        simpa [join] using TextSet.more hq this
  exact ⟨key, (C39_set _ _).2 (key.mono fun _ _ _ h => .rfc h)⟩

/-! ### The order -/

theorem SeqOrUid.cmp_expand {a b : SeqOrUid} {L : Nat} (ha : ∀ n, a = .value n → n < L) (hb : ∀ n, b = .value n → n < L) :
    a.cmp b = compare (a.expand L) (b.expand L) := by
  cases a with
  | asterisk =>
    cases b with
    | asterisk => simp [SeqOrUid.cmp, SeqOrUid.expand]
    | value m => exact (Nat.compare_eq_gt.2 (hb m rfl)).symm
  | value n =>
    cases b with
    | asterisk => exact (Nat.compare_eq_lt.2 (ha n rfl)).symm
    | value m => rfl

/-- C40: two message numbers are compared by value, `*` being larger than any plain number. -/
theorem C40_number (a b : SeqOrUid) (L : Nat) (ha : ∀ n, a = .value n → n < L) (hb : ∀ n, b = .value n → n < L) (x y : Nat)
    (hx : a.Is L x) (hy : b.Is L y) : a.cmp b = compare x y := by
  rw [SeqOrUid.is_expand] at hx hy
  subst hx hy
  exact SeqOrUid.cmp_expand ha hb

theorem SeqOrUid.min_expand {a b : SeqOrUid} {L : Nat} (ha : ∀ n, a = .value n → n < L) (hb : ∀ n, b = .value n → n < L) :
    (a.min b).expand L = Nat.min (a.expand L) (b.expand L) ∧ ∀ n, a.min b = .value n → n < L := by
  unfold SeqOrUid.min
  rw [SeqOrUid.cmp_expand hb ha]
  simp only [Nat.compare_eq_lt]
  split
  · exact ⟨(Nat.min_eq_right (by omega)).symm, hb⟩
  · exact ⟨(Nat.min_eq_left (by omega)).symm, ha⟩

theorem SeqOrUid.max_expand {a b : SeqOrUid} {L : Nat} (ha : ∀ n, a = .value n → n < L) (hb : ∀ n, b = .value n → n < L) :
    (a.max b).expand L = Nat.max (a.expand L) (b.expand L) ∧ ∀ n, a.max b = .value n → n < L := by
  unfold SeqOrUid.max
  rw [SeqOrUid.cmp_expand hb ha]
  simp only [Nat.compare_eq_lt]
  split
  · exact ⟨(Nat.max_eq_left (by omega)).symm, ha⟩
  · exact ⟨(Nat.max_eq_right (by omega)).symm, hb⟩

/-- The bounds of an element in natural numbers. -/
def Sequence.least (L : Nat) : Sequence → Nat
  | .single a => a.expand L
  | .range a b => Nat.min (a.expand L) (b.expand L)

/-- The bounds of an element in natural numbers. -/
def Sequence.greatest (L : Nat) : Sequence → Nat
  | .single a => a.expand L
  | .range a b => Nat.max (a.expand L) (b.expand L)

theorem Sequence.denotes_bounds (q : Sequence) (L n : Nat) : q.Denotes L n ↔ q.least L ≤ n ∧ n ≤ q.greatest L := by
  rw [Sequence.denotes_iff]
  cases q <;> simp only [Sequence.least, Sequence.greatest, Nat.min_def, Nat.max_def]
  · omega
  · split <;> omega

theorem Sequence.least_le_greatest (q : Sequence) (L : Nat) : q.least L ≤ q.greatest L := by
  cases q <;> simp only [Sequence.least, Sequence.greatest, Nat.min_def, Nat.max_def]
  · omega
  · split <;> omega

theorem Sequence.partialCmp_bounds {p q : Sequence} {L : Nat} (hp : ∀ n, p.Mentions n → n < L) (hq : ∀ n, q.Mentions n → n < L) :
    (p.partialCmp q = some .lt ↔ p.greatest L < q.least L) ∧ (p.partialCmp q = some .gt ↔ q.greatest L < p.least L) := by
  cases p with
  | single a =>
    have ha : ∀ n, a = .value n → n < L := fun n h => hp n h
    cases q with
    | single b =>
      have hb : ∀ n, b = .value n → n < L := fun n h => hq n h
      simp only [partialCmp, least, greatest, Option.some.injEq, SeqOrUid.cmp_expand ha hb, Nat.compare_eq_lt, Nat.compare_eq_gt, and_self]
    | range b1 b2 =>
      have hb1 : ∀ n, b1 = .value n → n < L := fun n h => hq n (.inl h)
      have hb2 : ∀ n, b2 = .value n → n < L := fun n h => hq n (.inr h)
      have m := SeqOrUid.min_expand hb1 hb2
      have M := SeqOrUid.max_expand hb1 hb2
      simp only [partialCmp, least, greatest, SeqOrUid.cmp_expand ha m.2, SeqOrUid.cmp_expand ha M.2, m.1, M.1, Nat.compare_eq_lt,
        Nat.compare_eq_gt, Nat.min_def, Nat.max_def]
      split <;> split <;> (try split) <;> simp <;> omega
  | range a1 a2 =>
    have ha1 : ∀ n, a1 = .value n → n < L := fun n h => hp n (.inl h)
    have ha2 : ∀ n, a2 = .value n → n < L := fun n h => hp n (.inr h)
    have m := SeqOrUid.min_expand ha1 ha2
    have M := SeqOrUid.max_expand ha1 ha2
    cases q with
    | single b =>
      have hb : ∀ n, b = .value n → n < L := fun n h => hq n h
      simp only [partialCmp, least, greatest, SeqOrUid.cmp_expand hb m.2, SeqOrUid.cmp_expand hb M.2, m.1, M.1, Nat.compare_eq_lt,
        Nat.compare_eq_gt, Nat.min_def, Nat.max_def]
      split <;> split <;> (try split) <;> simp <;> omega
    | range b1 b2 =>
      have hb1 : ∀ n, b1 = .value n → n < L := fun n h => hq n (.inl h)
      have hb2 : ∀ n, b2 = .value n → n < L := fun n h => hq n (.inr h)
      simp only [partialCmp, least, greatest, SeqOrUid.cmp_expand m.2 hb1, SeqOrUid.cmp_expand m.2 hb2, SeqOrUid.cmp_expand M.2 hb1,
        SeqOrUid.cmp_expand M.2 hb2, m.1, M.1, Nat.compare_eq_lt, Nat.compare_eq_gt, Nat.min_def, Nat.max_def]
      generalize a1.expand L = x1
      generalize a2.expand L = x2
      generalize b1.expand L = y1
      generalize b2.expand L = y2
      by_cases c1 : x1 ≤ x2 <;> by_cases c2 : y1 ≤ y2 <;> simp only [c1, c2, if_true, if_false] <;> split <;> (try split) <;> simp <;> omega

theorem SeqOrUid.cmp_eq {a b : SeqOrUid} : a.cmp b = .eq ↔ a = b := by
  cases a <;> cases b <;> simp [SeqOrUid.cmp]

theorem Sequence.partialCmp_eq {p q : Sequence} : p.partialCmp q = some .eq ↔ ∃ a, p = .single a ∧ q = .single a := by
  cases p <;> cases q
  · simp only [partialCmp, Option.some.injEq, SeqOrUid.cmp_eq, Sequence.single.injEq, exists_eq_left']
    exact eq_comm
  all_goals
    simp only [partialCmp, reduceCtorEq, false_and, and_false, exists_false, iff_false]
    split <;> (try split) <;> simp

/-- C40: an element is less than another one exactly if each number of the first is less than each number of the second;
greater likewise; equal only if both are the same single number. -/
theorem C40_sequence (p q : Sequence) (L : Nat) (hp : ∀ n, p.Mentions n → n < L) (hq : ∀ n, q.Mentions n → n < L) :
    (p.partialCmp q = some .lt ↔ ∀ x y, p.Denotes L x → q.Denotes L y → x < y) ∧
    (p.partialCmp q = some .gt ↔ ∀ x y, p.Denotes L x → q.Denotes L y → y < x) ∧
    (p.partialCmp q = some .eq ↔ ∃ a, p = .single a ∧ q = .single a) := by
  have e := Sequence.partialCmp_bounds hp hq
  have h1 := p.least_le_greatest L
  have h2 := q.least_le_greatest L
  simp only [Sequence.denotes_bounds]
  refine ⟨e.1.trans ⟨fun h x y hx hy => ?_, fun h => ?_⟩, e.2.trans ⟨fun h x y hx hy => ?_, fun h => ?_⟩, Sequence.partialCmp_eq⟩
  · omega
  · exact h _ _ ⟨h1, Nat.le_refl _⟩ ⟨Nat.le_refl _, h2⟩
  · omega
  · exact h _ _ ⟨Nat.le_refl _, h1⟩ ⟨h2, Nat.le_refl _⟩

theorem exists_above (l : List Sequence) : ∃ L, ∀ q ∈ l, ∀ n, q.Mentions n → n < L := by
  induction l with
  | nil => exact ⟨0, by simp⟩
  | cons q l ih =>
    obtain ⟨L, hL⟩ := ih
    refine ⟨L + (q.least 0 + q.greatest 0 + 1), ?_⟩
    intro q' hq' n hn
    rcases List.mem_cons.1 hq' with rfl | h
    · cases q' with
      | single a =>
        have : a = .value n := hn
        subst this
        simp only [Sequence.least, SeqOrUid.expand]
        omega
      | range a b =>
        rcases (show a = .value n ∨ b = .value n from hn) with rfl | rfl <;>
          simp only [Sequence.greatest, SeqOrUid.expand]
        · have : n ≤ Nat.max n (b.expand 0) := Nat.le_max_left ..
          simp only [SeqOrUid.expand] at this
          omega
        · have : n ≤ Nat.max (a.expand 0) n := Nat.le_max_right ..
          simp only [SeqOrUid.expand] at this
          omega
    · have := hL q' h n hn
      omega

/-- C40: comparing the other way round gives the opposite answer. -/
theorem C40_swap (p q : Sequence) : q.partialCmp p = (p.partialCmp q).map Ordering.swap := by
  obtain ⟨L, hL⟩ := exists_above [p, q]
  have hp := hL p (by simp)
  have hq := hL q (by simp)
  have e := Sequence.partialCmp_bounds hp hq
  have e' := Sequence.partialCmp_bounds hq hp
  have e0 := Sequence.partialCmp_eq (p := p) (q := q)
  have e0' := Sequence.partialCmp_eq (p := q) (q := p)
  have hs : (∃ a, p = .single a ∧ q = .single a) ↔ ∃ a, q = .single a ∧ p = .single a := by simp only [and_comm]
  rw [← e.2] at e'
  rw [← e.1] at e'
  rw [← hs, ← e0] at e0'
  rcases h : p.partialCmp q with _ | _ | _ | _ <;> rw [h] at e' e0' <;> simp only [reduceCtorEq, iff_false, iff_true, Option.some.injEq] at e' e0'
  · rcases h' : q.partialCmp p with _ | _ | _ | _ <;> rw [h'] at e' e0' <;> simp at e' e0' ⊢
  · simpa using e'.2
  · simpa using e0'
  · simpa using e'.1

/-- C40: the order is irreflexive and transitive. -/
theorem C40_strict (p q r : Sequence) :
    p.partialCmp p ≠ some .lt ∧ (p.partialCmp q = some .lt → q.partialCmp r = some .lt → p.partialCmp r = some .lt) := by
  obtain ⟨L, hL⟩ := exists_above [p, q, r]
  have hp := hL p (by simp)
  have hq := hL q (by simp)
  have hr := hL r (by simp)
  have h1 := p.least_le_greatest L
  have h2 := q.least_le_greatest L
  have h3 := r.least_le_greatest L
  rw [Ne, (Sequence.partialCmp_bounds hp hp).1, (Sequence.partialCmp_bounds hp hq).1, (Sequence.partialCmp_bounds hq hr).1,
    (Sequence.partialCmp_bounds hp hr).1]
  omega

/-- C40: equality in the sense of the order implies equality, and for single numbers also conversely. For ranges the converse fails, see
`C40_fails_reflexive`. -/
theorem C40_equal_partial (p q : Sequence) :
    (p.partialCmp q = some .eq → p = q) ∧ ∀ a, Sequence.partialCmp (.single a) (.single a) = some .eq := by
  refine ⟨fun h => ?_, fun a => Sequence.partialCmp_eq.2 ⟨a, rfl, rfl⟩⟩
  obtain ⟨a, rfl, rfl⟩ := Sequence.partialCmp_eq.1 h
  rfl

/-- C40 fails: a range is never equal to itself in the sense of the order. -/
theorem C40_fails_reflexive (a b : SeqOrUid) : Sequence.partialCmp (.range a b) (.range a b) = none := by
  rcases h : Sequence.partialCmp (.range a b) (.range a b) with _ | _ | _ | _
  · rfl
  · exact absurd h (C40_strict (.range a b) (.range a b) (.range a b)).1
  · obtain ⟨_, h, _⟩ := Sequence.partialCmp_eq.1 h
    cases h
  · have := C40_swap (.range a b) (.range a b)
    rw [h] at this
    cases this

/-- The hypotheses can be met: 1:3 is less than 5:4, and `*` is greater than both. -/
example : Sequence.partialCmp (.range (.value 1) (.value 3)) (.range (.value 5) (.value 4)) = some .lt ∧
    Sequence.partialCmp (.single .asterisk) (.range (.value 5) (.value 4)) = some .gt ∧
    ∀ n, Sequence.Mentions (.range (.value 5) (.value 4)) n → n < 6 := by
  refine ⟨by decide, by decide, ?_⟩
  rintro n (h | h) <;> cases h <;> decide

/-- The hypotheses can be met. -/
example : NextEndsSet b!"\r\n" ∧ TextSet RfcNum b!"1:10,*" [.range (.value 1) (.value 10), .single .asterisk] := by
  refine ⟨⟨13, _, rfl, by simp [Digit], by decide, by decide⟩, ?_⟩
  have : ∀ ds n, (∀ b ∈ ds, Digit b) → ds ≠ [] → ds.head? ≠ some 48 → Spec.value ds = n → n < 2 ^ 32 → RfcNum ds (.value n) :=
    fun ds n h h' h0 hv hn => .num ⟨h', h⟩ h0 hv hn
  exact .more (t := b!"1:10") (.range (this b!"1" 1 (by decide) (by decide) (by decide) rfl (by decide))
    (this b!"10" 10 (by decide) (by decide) (by decide) rfl (by decide))) (.one (.single .star))

end Imap
