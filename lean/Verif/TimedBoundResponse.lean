import Verif.TimedBoundCommand
import Verif.TimedResponse
/-
The ranks and factors of the parsers for responses and greetings (property C65).
-/
namespace Imap.Timed

variable {α : Type}

set_option synthInstance.maxSize 100000
set_option synthInstance.maxHeartbeats 0
set_option maxHeartbeats 0

instance [Quirks] : Bnd addressParen 4 134 := by bnd addressParen

instance [Quirks] : Bnd address 4 140 := by bnd address

instance [Quirks] : Bnd envAddresses 5 430 := by bnd envAddresses

instance [Quirks] : Bnd envelope 5 2726 := by bnd envelope

/-- The alternatives of `bodyExtension` without recursion. -/
def extPre [Quirks] : List (T BodyExtension) := [.nstring <$> nstring, .number <$> number]

/-- A parenthesized list of extensions. -/
def extArm (t : T BodyExtension) : T BodyExtension := .list <$> (do tag b!"("; let l ← sepList1 sp t; tag b!")"; return l)

theorem Amo.extArm {W N : Nat} {t : T BodyExtension} (hW : 5 ≤ W) (h : Amo W N t) : Arm W N (extArm t) (· = 40) := (h.paren hW).map _

theorem bound_extPre [Quirks] : Bound 4 40 (alt extPre) := by
  refine Bnd.bound (self := Bnd.use (r := ?r) (K := ?K) ?h ?hr ?hK)
  case h => unfold extPre; infer_instance
  all_goals decide +kernel

/-- The weight covers the alternatives without recursion. -/
theorem amo_bodyExtension [Quirks] (W N n : Nat) (hW : 100 * (N + 1) ≤ W) : Amo W N (bodyExtension n) := by
  induction n with
  | zero => exact ⟨fun x r v _ h => (by cases h), fun x _ => (by show 1 ≤ _; omega)⟩
  | succ n ih =>
    have key : ∀ x : Bytes, x.length ≤ N → (bodyExtension (n + 1)).cost x ≤ W * x.length + W ∧ ∀ r v, (bodyExtension (n + 1)).res x = .ok r v →
        r.length ≤ x.length ∧ (bodyExtension (n + 1)).cost x + 5 + W * r.length ≤ W * x.length + W := by
      intro x hx
      have hp : (alt extPre).cost x ≤ 40 * (N + 1) := by
        have h1 := bound_extPre.cost x
        simp only [budget, Nat.zero_add, pow_one] at h1
        omega
      have e0 : bodyExtension (n + 1) =
          alt (extPre ++ [Timed.extArm (bodyExtension n)]) := rfl
      rw [e0, cost_alt_append, res_alt_append]
      rcases e1 : (alt extPre).res x with ⟨r1, v1⟩ | _ | _ | k <;> simp only [Nat.add_zero]
      · refine ⟨by omega, fun r v hv => ?_⟩
        simp only [Res.ok.injEq] at hv
        obtain ⟨rfl, _⟩ := hv
        have hs := bound_extPre.shrinks _ _ _ e1
        have := Nat.mul_le_mul_left W hs
        exact ⟨hs, by omega⟩
      · exact ⟨by omega, by simp⟩
      · simp only [alt, cost_orElse, res_orElse]
        have hf : (fail : T BodyExtension).cost x = 0 := rfl
        have hf' : (fail : T BodyExtension).res x = .error := rfl
        rcases ih.extArm (by omega) x hx with ⟨h5, h6⟩ | ⟨b, y, e, hb, h5, h6⟩
        · rcases h6 with h6 | h6 <;> rw [h6] <;> simp only [Nat.add_zero, hf, hf']
          · exact ⟨by omega, by simp⟩
          · exact ⟨by omega, by simp⟩
        · rcases e6 : (Timed.extArm (bodyExtension n)).res x with ⟨r1, v1⟩ | _ | _ | k <;> simp only [Nat.add_zero, hf, hf']
          · refine ⟨by omega, fun r v hv => ?_⟩
            simp only [Res.ok.injEq] at hv
            obtain ⟨rfl, _⟩ := hv
            obtain ⟨h7, h8⟩ := h6 _ _ e6
            exact ⟨h7, by omega⟩
          all_goals exact ⟨by omega, by simp⟩
      · exact ⟨by omega, by simp⟩
    exact ⟨fun x r v hx h => (key x hx).2 r v h, fun x hx => (key x hx).1⟩

instance [Quirks] (n : Nat) : Bnd (bodyExtension n) 5 100 := by
  refine ⟨⟨fun x => ?_, fun x r v h => ?_, by omega⟩⟩
  · have := (amo_bodyExtension _ x.length n (Nat.le_refl _)).all x (Nat.le_refl _)
    simp only [budget]
    refine le_trans this (le_of_eq ?_)
    ring
  · exact ((amo_bodyExtension _ x.length n (Nat.le_refl _)).ok x r v (Nat.le_refl _) h).1

/-- The lists of extensions have the same degree. -/
instance (priority := high) [Quirks] (n : Nat) : Bnd (many0 (do sp; bodyExtension n) : T (List BodyExtension)) 5 100 := by
  refine ⟨⟨fun x => ?_, fun x r v h => ?_, by omega⟩⟩
  · have := ((amo_bodyExtension _ x.length n (Nat.le_refl _)).many (by omega) x (Nat.le_refl _)).1
    simp only [budget]
    have e : 100 * (x.length + 1) ^ (1 + 1) = 100 * (x.length + 1) * x.length + 100 * (x.length + 1) := by ring
    omega
  · exact (((amo_bodyExtension _ x.length n (Nat.le_refl _)).many (by omega) x (Nat.le_refl _)).2 r v h).1

instance [Quirks] : Bnd fldParam 4 56 := by bnd fldParam

instance [Quirks] : Bnd bodyFldParam 5 182 := by bnd bodyFldParam

instance [Quirks] : Bnd bodyFldEnc 4 31 := by bnd bodyFldEnc

instance [Quirks] : Bnd bodyFldOctets 4 6 := by bnd bodyFldOctets

instance [Quirks] : Bnd bodyFldDsp 5 219 := by bnd bodyFldDsp

instance [Quirks] : Bnd bodyFldLang 5 122 := by bnd bodyFldLang

instance [Quirks] : Bnd extLocation 5 133 := by bnd extLocation

instance [Quirks] : Bnd extLanguage 5 257 := by bnd extLanguage

instance [Quirks] : Bnd extDisposition 5 478 := by bnd extDisposition

instance [Quirks] : Bnd bodyExt1part 5 509 := by bnd bodyExt1part

instance [Quirks] : Bnd bodyExtMpart 5 660 := by bnd bodyExtMpart

instance [Quirks] : Bnd bodyFields 5 289 := by bnd bodyFields

instance [Quirks] {B : Type} : Bnd (bodyTypeBasic : T (BasicFields × SpecificFields B)) 5 347 := by bnd bodyTypeBasic

instance [Quirks] {B : Type} : Bnd (bodyTypeText : T (BasicFields × SpecificFields B)) 5 330 := by bnd bodyTypeText

theorem tagNC_split (p x z : Bytes) (u : Unit) (h : Imap.tagNC p x = .ok z u) : ∃ s, x = s ++ z ∧ s.map lower = p.map lower := by
  induction p generalizing x with
  | nil => simp only [Imap.tagNC, Res.ok.injEq] at h; exact ⟨[], by simp [h.1], rfl⟩
  | cons c w ih =>
    cases x with
    | nil => simp [Imap.tagNC] at h
    | cons b y =>
      simp only [Imap.tagNC] at h
      split at h
      · rename_i hc
        obtain ⟨s, rfl, hs⟩ := ih _ h
        exact ⟨b :: s, rfl, by simp [hs, hc]⟩
      · cases h

theorem escaped_all {f : UInt8 → Bool} (h34 : f 34 = false) (s : Bytes) (hs : s.all f = true) (c : UInt8) (t : Bytes) :
    Imap.escaped f (s ++ 34 :: c :: t) = .ok (34 :: c :: t) s := by
  induction s with
  | nil => simp [Imap.escaped, h34]
  | cons a s ih =>
    simp only [List.all_cons, Bool.and_eq_true] at hs
    have e : a :: s ++ 34 :: c :: t = a :: (s ++ 34 :: c :: t) := rfl
    rw [e]
    rcases e2 : s ++ 34 :: c :: t with _ | ⟨d, w⟩
    · simp at e2
    · simp only [Imap.escaped, hs.1, if_true]
      rw [← e2, ih hs.2]
      rfl

/-- A quoted string without escapes. -/
theorem string_all [Quirks] (s : Bytes) (hs : s.all isAnyTextCharExceptQuotedSpecials = true) (c : UInt8) (t : Bytes) :
    ∃ v, string.res (34 :: (s ++ 34 :: c :: t)) = .ok (c :: t) v := by
  have h : quoted.res (34 :: (s ++ 34 :: c :: t)) = .ok (c :: t) (unescapeQuoted s) := by
    unfold quoted
    rw [res_bind]
    have e1 : dquote.res (34 :: (s ++ 34 :: c :: t)) = .ok (s ++ 34 :: c :: t) () := rfl
    have e2 : (escaped isAnyTextCharExceptQuotedSpecials).res (s ++ 34 :: c :: t) = .ok (34 :: c :: t) s :=
      escaped_all (by decide) s hs c t
    simp only [e1, Res.andThen]
    rw [res_bind]
    simp only [e2, Res.andThen]
    rfl
  refine ⟨.quoted (unescapeQuoted s), ?_⟩
  unfold string
  simp only [alt, res_orElse, res_map, h, Res.andThen]

set_option maxRecDepth 10000 in
theorem normal_lower (b : UInt8) : isAnyTextCharExceptQuotedSpecials b = isAnyTextCharExceptQuotedSpecials (lower b) :=
  (forall_byte (P := fun b => isAnyTextCharExceptQuotedSpecials b = isAnyTextCharExceptQuotedSpecials (lower b)) (by decide)) b

set_option maxRecDepth 10000 in
theorem lower_low {b c : UInt8} (h : lower b = c) (hc : c = 34 ∨ c = 32) : b = c := by
  rcases hc with rfl | rfl
  · exact (forall_byte (P := fun b => lower b = 34 → b = 34) (by decide)) b h
  · exact (forall_byte (P := fun b => lower b = 32 → b = 32) (by decide)) b h

theorem all_lower {s p : Bytes} (h : s.map lower = p) (hp : p.all isAnyTextCharExceptQuotedSpecials = true) :
    s.all isAnyTextCharExceptQuotedSpecials = true := by
  subst h
  rw [List.all_map] at hp
  rw [← hp]
  congr 1
  funext b
  exact normal_lower b

/-- What begins like a message does not begin like a text, and the same follows if it is read as another part. -/
theorem message_basic [Quirks] {B : Type} {y y1 y2 : Bytes} {u u' : Unit} (h1 : (tagNC b!"\"MESSAGE\" \"RFC822\"").res y = .ok y1 u)
    (h2 : sp.res y1 = .ok y2 u') :
    (∃ z, y = 34 :: z) ∧ (bodyTypeText : T (BasicFields × SpecificFields B)).res y = .error ∧
    ∀ r v, (bodyTypeBasic : T (BasicFields × SpecificFields B)).res y = .ok r v → ∃ f, bodyFields.res y2 = .ok r f := by
  obtain ⟨s, rfl, hs⟩ := tagNC_split _ _ _ _ h1
  have hy1 : y1 = 32 :: y2 := by
    match y1, h2 with
    | [], h2 => cases h2
    | c :: z, h2 =>
      by_cases hc : c = 32
      · subst hc
        have : Res.ok z () = .ok y2 u' := h2
        simp only [Res.ok.injEq] at this
        rw [this.1]
      · have : sp.res (c :: z) = .error := by unfold T.res; rw [sp_other hc]
        rw [this] at h2
        cases h2
  subst hy1
  have hp : (b!"\"MESSAGE\" \"RFC822\"").map lower = 34 :: (b!"message" ++ 34 :: 32 :: 34 :: (b!"rfc822" ++ [34])) := by decide
  rw [hp, List.map_eq_cons_iff] at hs
  obtain ⟨a1, s', rfl, ha1, hs⟩ := hs
  rw [List.map_eq_append_iff] at hs
  obtain ⟨m, s'', rfl, hm, hs⟩ := hs
  rw [List.map_eq_cons_iff] at hs
  obtain ⟨a2, s3, rfl, ha2, hs⟩ := hs
  rw [List.map_eq_cons_iff] at hs
  obtain ⟨a3, s4, rfl, ha3, hs⟩ := hs
  rw [List.map_eq_cons_iff] at hs
  obtain ⟨a4, s5, rfl, ha4, hs⟩ := hs
  rw [List.map_eq_append_iff] at hs
  obtain ⟨f, s6, rfl, hf, hs⟩ := hs
  rw [List.map_eq_cons_iff] at hs
  obtain ⟨a5, s7, rfl, ha5, hs⟩ := hs
  rw [List.map_eq_nil_iff] at hs
  subst hs
  have e1 := lower_low ha1 (by simp)
  have e2 := lower_low ha2 (by simp)
  have e3 := lower_low ha3 (by simp)
  have e4 := lower_low ha4 (by simp)
  have e5 := lower_low ha5 (by simp)
  subst e1 e2 e3 e4 e5
  have ey : (34 :: (m ++ 34 :: 32 :: 34 :: (f ++ [34]))) ++ 32 :: y2 = 34 :: (m ++ 34 :: 32 :: (34 :: (f ++ 34 :: 32 :: y2))) := by simp
  rw [ey]
  refine ⟨⟨_, rfl⟩, ?_, fun r v hv => ?_⟩
  · have h : (tagNC b!"\"TEXT\" ").res (34 :: (m ++ 34 :: 32 :: (34 :: (f ++ 34 :: 32 :: y2)))) = .error := by
      match m, hm with
      | [], hm => cases hm
      | a :: m', hm =>
        have ha : lower a = 109 := (List.cons.inj hm).1
        show Imap.tagNC b!"\"TEXT\" " (34 :: a :: _) = .error
        have h1 : ¬ lower 84 = lower a := by rw [ha]; decide
        simp only [Imap.tagNC, h1, if_true, if_false]
    unfold bodyTypeText
    rw [res_bind, h]
    rfl
  · obtain ⟨v1, h1⟩ := string_all m (all_lower hm (by decide)) 32 (34 :: (f ++ 34 :: 32 :: y2))
    obtain ⟨v2, h2⟩ := string_all f (all_lower hf (by decide)) 32 y2
    unfold bodyTypeBasic at hv
    rw [res_bind] at hv
    simp only [h1, Res.andThen] at hv
    rw [res_spThen] at hv
    simp only [if_true] at hv
    rw [res_bind] at hv
    simp only [h2, Res.andThen] at hv
    rw [res_spThen] at hv
    simp only [if_true] at hv
    rw [res_bind] at hv
    rcases e : bodyFields.res y2 with ⟨r1, v1⟩ | _ | _ | k <;> rw [e] at hv <;> simp only [Res.andThen, res_pure, reduceCtorEq, Res.ok.injEq] at hv
    obtain ⟨rfl, _⟩ := hv
    exact ⟨_, rfl⟩

/-- A parenthesis is no string. -/
theorem ext1part_paren [Quirks] (z : Bytes) : bodyExt1part.res (40 :: z) = .error := by
  have hs : string.res (40 :: z) = .error := by
    apply alt_error
    simp only [List.mem_cons, List.not_mem_nil, or_false, forall_eq_or_imp, forall_eq]
    exact ⟨rfl, res_gate_error rfl, rfl⟩
  have hn : nstring.res (40 :: z) = .error := by
    apply alt_error
    simp only [List.mem_cons, List.not_mem_nil, or_false, forall_eq_or_imp, forall_eq]
    refine ⟨?_, rfl⟩
    rw [res_map, hs]
    rfl
  unfold bodyExt1part
  rw [res_bind, hn]
  rfl

/-- An envelope begins with a parenthesis. -/
theorem envelope_paren [Quirks] {x r : Bytes} {v : Envelope} (h : envelope.res x = .ok r v) : ∃ z, x = 40 :: z := by
  unfold envelope at h
  rw [res_openThen] at h
  match x, h with
  | [], h => cases h
  | b :: z, h =>
    by_cases hb : b = 40
    · exact ⟨z, by rw [hb]⟩
    · simp [hb] at h

theorem sp_ok {x r : Bytes} {u : Unit} (h : sp.res x = .ok r u) : x = 32 :: r := by
  match x, h with
  | [], h => cases h
  | c :: z, h =>
    by_cases hc : c = 32
    · subst hc
      have : Res.ok z () = .ok r u := h
      simp only [Res.ok.injEq] at this
      rw [this.1]
    · have : sp.res (c :: z) = .error := by unfold T.res; rw [sp_other hc]
      rw [this] at h
      cases h

/-- What follows the envelope of a message. -/
def msgTail (t : T BodyStructure) (f : BasicFields) (e : Envelope) : T (BasicFields × SpecificFields BodyStructure) := do
  let b ← t
  sp
  let n ← number
  return (f, .message e b n)

/-- `H` covers each parser without recursion, on inputs of at most `N` bytes. -/
structure Covers [Quirks] (H N : Nat) : Prop where
  tag : ∀ x : Bytes, x.length ≤ N → (tagNC b!"\"MESSAGE\" \"RFC822\"").cost x ≤ H
  fields : ∀ x : Bytes, x.length ≤ N → bodyFields.cost x ≤ H
  envelope : ∀ x : Bytes, x.length ≤ N → envelope.cost x ≤ H
  number : ∀ x : Bytes, x.length ≤ N → number.cost x ≤ H
  string : ∀ x : Bytes, x.length ≤ N → string.cost x ≤ H
  text : ∀ x : Bytes, x.length ≤ N → (bodyTypeText : T (BasicFields × SpecificFields BodyStructure)).cost x ≤ H
  basic : ∀ x : Bytes, x.length ≤ N → (bodyTypeBasic : T (BasicFields × SpecificFields BodyStructure)).cost x ≤ H
  ext1 : ∀ x : Bytes, x.length ≤ N → bodyExt1part.cost x ≤ H
  extM : ∀ x : Bytes, x.length ≤ N → bodyExtMpart.cost x ≤ H

theorem cost_sp (x : Bytes) : sp.cost x = 2 := rfl

/-- A message: it fails before the nested body, or the nested body is read. -/
theorem msg_cases [Quirks] {H N : Nat} (hH : Covers H N) (t : T BodyStructure) (y : Bytes) (hy : y.length ≤ N) :
    ((bodyTypeMsg t).cost y ≤ 3 * H + 6 ∧ ∀ r v, (bodyTypeMsg t).res y ≠ .ok r v) ∨
    (∃ y1 u y2 u' y3 f y4 u'' y5 e z, (tagNC b!"\"MESSAGE\" \"RFC822\"").res y = .ok y1 u ∧ sp.res y1 = .ok y2 u' ∧ bodyFields.res y2 = .ok y3 f ∧
      sp.res y3 = .ok y4 u'' ∧ envelope.res y4 = .ok y5 e ∧ z.length < y.length ∧ (bodyTypeMsg t).cost y ≤ 3 * H + 6 + (msgTail t f e).cost z ∧
      (bodyTypeMsg t).res y = (msgTail t f e).res z) := by
  have hb : Bound 5 _ bodyFields := (inferInstance : Bnd bodyFields _ _).bound
  have he : Bound 5 _ envelope := (inferInstance : Bnd envelope _ _).bound
  have ht : ∀ {x r : Bytes} {u : Unit}, (tagNC b!"\"MESSAGE\" \"RFC822\"").res x = .ok r u → r.length ≤ x.length := fun h => by
    obtain ⟨s, e, _⟩ := tagNC_split _ _ _ _ h
    rw [e]; simp
  have c1 := hH.tag y hy
  unfold bodyTypeMsg
  rw [cost_bind, res_bind]
  rcases e1 : (tagNC b!"\"MESSAGE\" \"RFC822\"").res y with ⟨y1, u1⟩ | _ | _ | k <;> simp only [Res.andThen, Nat.add_zero]
  · have l1 := ht e1
    rw [cost_bind, res_bind, cost_sp]
    rcases e2 : sp.res y1 with ⟨y2, u2⟩ | _ | _ | k <;> simp only [Res.andThen, Nat.add_zero]
    · have l2 := sp_ok e2
      subst l2
      simp only [List.length_cons] at l1
      have c2 := hH.fields y2 (by omega)
      rw [cost_bind, res_bind]
      rcases e3 : bodyFields.res y2 with ⟨y3, f⟩ | _ | _ | k <;> simp only [Res.andThen, Nat.add_zero]
      · have l3 := hb.shrinks _ _ _ e3
        rw [cost_bind, res_bind, cost_sp]
        rcases e4 : sp.res y3 with ⟨y4, u4⟩ | _ | _ | k <;> simp only [Res.andThen, Nat.add_zero]
        · have l4 := sp_ok e4
          subst l4
          simp only [List.length_cons] at l3
          have c3 := hH.envelope y4 (by omega)
          rw [cost_bind, res_bind]
          rcases e5 : envelope.res y4 with ⟨y5, e⟩ | _ | _ | k <;> simp only [Res.andThen, Nat.add_zero]
          · have l5 := he.shrinks _ _ _ e5
            rw [cost_bind, res_bind, cost_sp]
            rcases e6 : sp.res y5 with ⟨z, u6⟩ | _ | _ | k <;> simp only [Res.andThen, Nat.add_zero]
            · have l6 := sp_ok e6
              subst l6
              simp only [List.length_cons] at l5
              right
              refine ⟨_, _, y2, _, _, f, y4, _, _, e, z, rfl, e2, e3, e4, e5, by omega, ?_, rfl⟩
              unfold msgTail
              omega
            all_goals exact Or.inl ⟨by omega, by simp⟩
          all_goals exact Or.inl ⟨by omega, by simp⟩
        all_goals exact Or.inl ⟨by omega, by simp⟩
      all_goals exact Or.inl ⟨by omega, by simp⟩
    all_goals exact Or.inl ⟨by omega, by simp⟩
  all_goals exact Or.inl ⟨by omega, by simp⟩

/-- The tail of a message pays with its bytes. -/
theorem msgTail_spec [Quirks] {W N H : Nat} (hH : Covers H N) {t : T BodyStructure} (h : AmoP W N t) (f : BasicFields) (e : Envelope)
    (z : Bytes) (hz : z.length ≤ N) :
    (msgTail t f e).cost z ≤ W * z.length + W + H ∧ ∀ r v, (msgTail t f e).res z = .ok r v → r.length ≤ z.length ∧
      (msgTail t f e).cost z + W * r.length ≤ W * z.length + H := by
  have hb : Bound 3 _ number := (inferInstance : Bnd number _ _).bound
  have ha := h.all z hz
  unfold msgTail
  rw [cost_bind, res_bind]
  rcases e1 : t.res z with ⟨r1, v1⟩ | _ | _ | k <;> simp only [Res.andThen, Nat.add_zero]
  · obtain ⟨h1, h2⟩ := h.ok _ _ _ hz e1
    rw [cost_bind, res_bind, cost_sp]
    rcases e2 : sp.res r1 with ⟨r2, u2⟩ | _ | _ | k <;> simp only [Res.andThen, Nat.add_zero]
    · have l2 := sp_ok e2
      subst l2
      simp only [List.length_cons] at h1 h2
      rw [Nat.mul_add, Nat.mul_one] at h2
      have c := hH.number r2 (by omega)
      rw [cost_bind, res_bind]
      rcases e3 : number.res r2 with ⟨r3, n⟩ | _ | _ | k <;> simp only [Res.andThen, Nat.add_zero, cost_pure, res_pure]
      · have l3 := hb.shrinks _ _ _ e3
        have := Nat.mul_le_mul_left W l3
        refine ⟨by omega, fun r v hv => ?_⟩
        simp only [Res.ok.injEq] at hv
        obtain ⟨rfl, _⟩ := hv
        exact ⟨by omega, by omega⟩
      all_goals exact ⟨by omega, by simp⟩
    all_goals exact ⟨by omega, by simp⟩
  all_goals exact ⟨by omega, by simp⟩

/-- The extension data after a part. -/
theorem opt_ext [Quirks] {H N : Nat} {t : T α} {r K : Nat} (hb : Bound r K t) (hH : ∀ x : Bytes, x.length ≤ N → t.cost x ≤ H) (x : Bytes)
    (hx : x.length ≤ N) : (opt (do sp; t : T α)).cost x ≤ H + 3 ∧ ∀ r v, (opt (do sp; t : T α)).res x = .ok r v → r.length ≤ x.length := by
  rw [cost_opt, res_opt, cost_spThen, res_spThen]
  match x with
  | [] => exact ⟨by simp, by simp⟩
  | b :: z =>
    by_cases h : b = 32
    · subst h
      simp only [if_true, List.length_cons] at hx ⊢
      have := hH z (by omega)
      refine ⟨by omega, fun r v hv => ?_⟩
      rcases e : t.res z with ⟨r1, v1⟩ | _ | _ | k <;> rw [e] at hv <;> simp only [reduceCtorEq, Res.ok.injEq] at hv
      · obtain ⟨rfl, _⟩ := hv
        have := hb.shrinks _ _ _ e
        omega
      · rw [← hv.1]; simp
    · simp only [h, if_false]
      refine ⟨by omega, fun r v hv => ?_⟩
      simp only [Res.ok.injEq] at hv
      rw [← hv.1]

/-- A single part. If it fails slowly then it began with a quote, so that it is no multipart either. -/
theorem onePart_spec [Quirks] {W N H : Nat} (hH : Covers H N) {t : T BodyStructure} (h : AmoP W N t) (n : Nat) (y : Bytes) (hy : y.length < N) :
    (bodyType1part n t).cost y ≤ W * y.length + 8 * H + 20 ∧
    (∀ r v, (bodyType1part n t).res y = .ok r v → r.length ≤ y.length ∧
      ((bodyType1part n t).cost y + W * r.length ≤ W * y.length + 8 * H + 20 ∨ ∃ z, r = 32 :: z)) ∧
    ((bodyType1part n t).res y = .error → (bodyType1part n t).cost y ≤ 8 * H + 20 ∨ ∃ z, y = 34 :: z) := by
  have hT : Bound 5 _ (bodyTypeText : T (BasicFields × SpecificFields BodyStructure)) := (inferInstance : Bnd bodyTypeText _ _).bound
  have hB : Bound 5 _ (bodyTypeBasic : T (BasicFields × SpecificFields BodyStructure)) := (inferInstance : Bnd bodyTypeBasic _ _).bound
  have hE : Bound 5 _ bodyExt1part := (inferInstance : Bnd bodyExt1part _ _).bound
  have cT := hH.text y (by omega)
  have cB := hH.basic y (by omega)
  by_cases hn : n = 0
  · subst hn
    have e : ∀ x : Bytes, (bodyType1part 0 t).cost x = 1 := fun _ => rfl
    have e' : ∀ x : Bytes, (bodyType1part 0 t).res x = .failure .recursionLimit := fun _ => rfl
    rw [e, e']
    exact ⟨by omega, by simp, by simp⟩
  -- the three alternatives
  have hX : ((alt [bodyTypeMsg t, bodyTypeText, bodyTypeBasic]).cost y ≤ W * y.length + 6 * H + 6 ∧
      (∀ r v, (alt [bodyTypeMsg t, bodyTypeText, bodyTypeBasic]).res y = .ok r v → r.length ≤ y.length ∧
        ((alt [bodyTypeMsg t, bodyTypeText, bodyTypeBasic]).cost y + W * r.length ≤ W * y.length + 6 * H + 6 ∨ ∃ z, r = 32 :: 40 :: z)) ∧
      ((alt [bodyTypeMsg t, bodyTypeText, bodyTypeBasic]).res y = .error →
        (alt [bodyTypeMsg t, bodyTypeText, bodyTypeBasic]).cost y ≤ 6 * H + 6 ∨ ∃ z, y = 34 :: z)) := by
    simp only [alt, cost_orElse, res_orElse]
    have hf : (fail : T (BasicFields × SpecificFields BodyStructure)).cost y = 0 := rfl
    have hf' : (fail : T (BasicFields × SpecificFields BodyStructure)).res y = .error := rfl
    rcases msg_cases hH t y (by omega) with ⟨h1, h2⟩ | ⟨y1, u, y2, u', y3, f, y4, u'', y5, e, z, e1, e2, e3, e4, e5, hz, h1, h2⟩
    · rcases e1 : (bodyTypeMsg t).res y with ⟨r1, v1⟩ | _ | _ | k <;> simp only [Nat.add_zero]
      · exact absurd e1 (h2 _ _)
      · exact ⟨by omega, by simp, by simp⟩
      · rcases e2 : (bodyTypeText : T (BasicFields × SpecificFields BodyStructure)).res y with ⟨r1, v1⟩ | _ | _ | k <;> simp only [Nat.add_zero]
        · have l := hT.shrinks _ _ _ e2
          have := Nat.mul_le_mul_left W l
          refine ⟨by omega, fun r v hv => ?_, by simp⟩
          simp only [Res.ok.injEq] at hv
          obtain ⟨rfl, _⟩ := hv
          exact ⟨l, Or.inl (by omega)⟩
        · exact ⟨by omega, by simp, by simp⟩
        · rcases e3 : (bodyTypeBasic : T (BasicFields × SpecificFields BodyStructure)).res y with ⟨r1, v1⟩ | _ | _ | k <;>
            simp only [Nat.add_zero, hf, hf']
          · have l := hB.shrinks _ _ _ e3
            have := Nat.mul_le_mul_left W l
            refine ⟨by omega, fun r v hv => ?_, by simp⟩
            simp only [Res.ok.injEq] at hv
            obtain ⟨rfl, _⟩ := hv
            exact ⟨l, Or.inl (by omega)⟩
          · exact ⟨by omega, by simp, by simp⟩
          · exact ⟨by omega, by simp, fun _ => Or.inl (by omega)⟩
          · exact ⟨by omega, by simp, by simp⟩
        · exact ⟨by omega, by simp, by simp⟩
      · exact ⟨by omega, by simp, by simp⟩
    · obtain ⟨h3, h4⟩ := msgTail_spec hH h f e z (by omega)
      obtain ⟨hq, hq1, hq2⟩ := message_basic (B := BodyStructure) e1 e2
      have hm : W * (z.length + 1) ≤ W * y.length := Nat.mul_le_mul_left W hz
      rw [Nat.mul_add, Nat.mul_one] at hm
      rw [h2]
      rcases e6 : (msgTail t f e).res z with ⟨r1, v1⟩ | _ | _ | k <;> simp only [Nat.add_zero]
      · obtain ⟨h5, h6⟩ := h4 _ _ e6
        refine ⟨by omega, fun r v hv => ?_, by simp⟩
        simp only [Res.ok.injEq] at hv
        obtain ⟨rfl, _⟩ := hv
        exact ⟨by omega, Or.inl (by omega)⟩
      · exact ⟨by omega, by simp, by simp⟩
      · rw [hq1]
        simp only
        rcases e7 : (bodyTypeBasic : T (BasicFields × SpecificFields BodyStructure)).res y with ⟨r1, v1⟩ | _ | _ | k <;>
          simp only [Nat.add_zero, hf, hf']
        · have l := hB.shrinks _ _ _ e7
          refine ⟨by omega, fun r v hv => ?_, by simp⟩
          simp only [Res.ok.injEq] at hv
          obtain ⟨rfl, _⟩ := hv
          obtain ⟨f', hf'⟩ := hq2 _ _ e7
          rw [e3] at hf'
          simp only [Res.ok.injEq] at hf'
          obtain ⟨rfl, _⟩ := hf'
          obtain ⟨w, hw⟩ := envelope_paren e5
          exact ⟨l, Or.inr ⟨w, by rw [sp_ok e4, hw]⟩⟩
        · exact ⟨by omega, by simp, by simp⟩
        · exact ⟨by omega, by simp, fun _ => Or.inr hq⟩
        · exact ⟨by omega, by simp, by simp⟩
      · exact ⟨by omega, by simp, by simp⟩
  obtain ⟨hX1, hX2, hX3⟩ := hX
  unfold bodyType1part
  simp only [hn, if_false]
  rw [cost_bind, res_bind]
  rcases e1 : (alt [bodyTypeMsg t, bodyTypeText, bodyTypeBasic]).res y with ⟨r1, v1⟩ | _ | _ | k <;> simp only [Res.andThen, Nat.add_zero]
  · obtain ⟨h3, h4⟩ := hX2 _ _ e1
    obtain ⟨h5, h6⟩ := opt_ext hE hH.ext1 r1 (by omega)
    rw [cost_bind, res_bind]
    rcases e2 : (opt (do sp; bodyExt1part : T SinglePartExt)).res r1 with ⟨r2, v2⟩ | _ | _ | k <;>
      simp only [Res.andThen, Nat.add_zero, cost_pure, res_pure]
    · have l := h6 _ _ e2
      have := Nat.mul_le_mul_left W l
      refine ⟨by omega, fun r v hv => ?_, by simp⟩
      simp only [Res.ok.injEq] at hv
      obtain ⟨rfl, _⟩ := hv
      refine ⟨by omega, ?_⟩
      rcases h4 with h4 | ⟨z, hz⟩
      · left; omega
      · right
        subst hz
        rw [res_opt, res_spThen] at e2
        simp only [if_true, ext1part_paren, Res.ok.injEq] at e2
        exact ⟨_, e2.1.symm⟩
    · exact ⟨by omega, by simp, by simp⟩
    · exfalso
      rw [res_opt] at e2
      split at e2 <;> simp_all
    · exact ⟨by omega, by simp, by simp⟩
  · exact ⟨by omega, by simp, by simp⟩
  · refine ⟨by omega, by simp, fun _ => ?_⟩
    rcases hX3 e1 with h | h
    · left; omega
    · right; exact h
  · exact ⟨by omega, by simp, by simp⟩

/-- A multipart. -/
theorem mPart_spec [Quirks] {W N H : Nat} (hH : Covers H N) {t : T BodyStructure} (h : AmoP W N t) (n : Nat) (y : Bytes) (hy : y.length < N) :
    (bodyTypeMpart n t).cost y ≤ W * y.length + W + 3 * H + 20 ∧
    (∀ r v, (bodyTypeMpart n t).res y = .ok r v → r.length ≤ y.length ∧ (bodyTypeMpart n t).cost y + W * r.length ≤ W * y.length + 3 * H + 20) ∧
    ((∀ z, y ≠ 40 :: z) → (bodyTypeMpart n t).cost y ≤ 3 ∧ ∀ r v, (bodyTypeMpart n t).res y ≠ .ok r v) := by
  have hS : Bound 4 _ string := (inferInstance : Bnd string _ _).bound
  have hE : Bound 5 _ bodyExtMpart := (inferInstance : Bnd bodyExtMpart _ _).bound
  by_cases hn : n = 0
  · subst hn
    have e : ∀ x : Bytes, (bodyTypeMpart 0 t).cost x = 1 := fun _ => rfl
    have e' : ∀ x : Bytes, (bodyTypeMpart 0 t).res x = .failure .recursionLimit := fun _ => rfl
    rw [e, e']
    exact ⟨by omega, by simp, by simp⟩
  obtain ⟨h1, h2⟩ := h.many1 y (by omega)
  have h0 : (∀ z, y ≠ 40 :: z) → (many1 t).cost y ≤ 3 ∧ ∀ r v, (many1 t).res y ≠ .ok r v := fun hz => by
    obtain ⟨h3, h4⟩ := h.other y (by omega) hz
    unfold many1
    rw [cost_bind, res_bind]
    rcases e : t.res y with ⟨r1, v1⟩ | _ | _ | k <;> simp only [Res.andThen, Nat.add_zero]
    · exact absurd e (h4 _ _)
    all_goals exact ⟨h3, by simp⟩
  unfold bodyTypeMpart
  simp only [hn, if_false]
  rw [cost_bind, res_bind]
  rcases e1 : (many1 t).res y with ⟨r1, v1⟩ | _ | _ | k <;> simp only [Res.andThen, Nat.add_zero]
  · obtain ⟨h3, h4⟩ := h2 _ _ e1
    rw [← and_assoc]
    refine ⟨?_, fun hz => absurd e1 ((h0 hz).2 _ _)⟩
    rw [cost_spThen, res_spThen]
    match r1, h3, h4 with
    | [], _, _ => exact ⟨by simp only; omega, by simp⟩
    | b :: z, h3, h4 =>
      by_cases hb : b = 32
      · subst hb
        simp only [if_true, List.length_cons] at h3 h4 ⊢
        have h4 : (many1 t).cost y + W * (z.length + 1) ≤ W * y.length := by
          rcases h4 with h4 | ⟨w, h4⟩
          · exact h4
          · exact absurd (List.cons.inj h4).1 (by decide)
        rw [Nat.mul_add, Nat.mul_one] at h4
        have c := hH.string z (by omega)
        rw [cost_bind, res_bind]
        rcases e2 : string.res z with ⟨r2, v2⟩ | _ | _ | k <;> simp only [Res.andThen, Nat.add_zero]
        · have l := hS.shrinks _ _ _ e2
          have hl := Nat.mul_le_mul_left W l
          obtain ⟨h5, h6⟩ := opt_ext hE hH.extM r2 (by omega)
          rw [cost_bind, res_bind]
          rcases e3 : (opt (do sp; bodyExtMpart : T MultiPartExt)).res r2 with ⟨r3, v3⟩ | _ | _ | k <;>
            simp only [Res.andThen, Nat.add_zero, cost_pure, res_pure]
          · have l' := h6 _ _ e3
            have := Nat.mul_le_mul_left W l'
            refine ⟨by omega, fun r v hv => ?_⟩
            simp only [Res.ok.injEq] at hv
            obtain ⟨rfl, _⟩ := hv
            exact ⟨by omega, by omega⟩
          all_goals exact ⟨by omega, by simp⟩
        all_goals exact ⟨by omega, by simp⟩
      · simp only [hb, if_false]
        exact ⟨by omega, by simp⟩
  all_goals exact ⟨by omega, by simp, fun hz => ⟨(h0 hz).1, by simp⟩⟩

/-- One level. -/
theorem amo_bodyStep [Quirks] {W N H : Nat} (hH : Covers H N) (hW : 12 * H + 100 ≤ W) {msg part : T BodyStructure} (h1 : AmoP W N msg)
    (h2 : AmoP W N part) (n : Nat) : AmoP W N (bodyStep n msg part) := by
  unfold bodyStep
  by_cases hn : n = 0
  · simp only [hn, if_true]
    exact ⟨fun x r v _ h => (by cases h), fun x _ => (by show 1 ≤ _; omega), fun x _ _ => ⟨by show 1 ≤ 3; omega, fun r v h => by cases h⟩⟩
  simp only [hn, if_false]
  refine AmoP.wrap (H := 11 * H + 50) (by omega) fun y hy => ?_
  obtain ⟨a1, a2, a3⟩ := onePart_spec hH h1 (n - 1) y hy
  obtain ⟨b1, b2, b3⟩ := mPart_spec hH h2 (n - 1) y hy
  simp only [alt, cost_orElse, res_orElse]
  have hf : (fail : T BodyStructure).cost y = 0 := rfl
  have hf' : (fail : T BodyStructure).res y = .error := rfl
  rcases e1 : (bodyType1part (n - 1) msg).res y with ⟨r1, v1⟩ | _ | _ | k <;> simp only [Nat.add_zero]
  · refine ⟨by omega, fun r v hv => ?_⟩
    simp only [Res.ok.injEq] at hv
    obtain ⟨rfl, _⟩ := hv
    obtain ⟨h3, h4⟩ := a2 _ _ e1
    refine ⟨h3, ?_⟩
    rcases h4 with h4 | ⟨z, h4⟩
    · left; omega
    · right; exact ⟨32, z, by decide, h4⟩
  · exact ⟨by omega, by simp⟩
  · rcases a3 e1 with h5 | ⟨z, hz⟩
    · rcases e2 : (bodyTypeMpart (n - 1) part).res y with ⟨r1, v1⟩ | _ | _ | k <;> simp only [Nat.add_zero, hf, hf']
      · obtain ⟨h3, h4⟩ := b2 _ _ e2
        refine ⟨by omega, fun r v hv => ?_⟩
        simp only [Res.ok.injEq] at hv
        obtain ⟨rfl, _⟩ := hv
        exact ⟨h3, Or.inl (by omega)⟩
      all_goals exact ⟨by omega, by simp⟩
    · obtain ⟨h3, h4⟩ := b3 (by rw [hz]; simp)
      rcases e2 : (bodyTypeMpart (n - 1) part).res y with ⟨r1, v1⟩ | _ | _ | k <;> simp only [Nat.add_zero, hf, hf']
      · exact absurd e2 (h4 _ _)
      all_goals exact ⟨by omega, by simp⟩
  · exact ⟨by omega, by simp⟩

theorem amo_bodyFuel [Quirks] {W N H : Nat} (hH : Covers H N) (hW : 12 * H + 100 ≤ W) (fuel n : Nat) : AmoP W N (bodyFuel fuel n) := by
  induction fuel generalizing n with
  | zero => exact ⟨fun x r v _ h => (by cases h), fun x _ => (by show 0 ≤ _; omega), fun x _ _ => ⟨by show 0 ≤ 3; omega, fun r v h => by cases h⟩⟩
  | succ fuel ih => exact amo_bodyStep hH hW (ih _) (ih _) n

theorem Bnd.below {r K : Nat} (N : Nat) {t : T α} (h : Bnd t r K) (hr : Nat.ble r 5 = true) (hK : Nat.ble K 3000 = true) (x : Bytes)
    (hx : x.length ≤ N) : t.cost x ≤ 3000 * (N + 1) ^ 2 := by
  have h1 := (h.bound.mono (Nat.le_of_ble_eq_true hr) (Nat.le_of_ble_eq_true hK)).cost x
  simp only [budget] at h1
  exact le_trans h1 (Nat.mul_le_mul_left _ (Nat.pow_le_pow_left (by omega) _))

theorem covers [Quirks] (N : Nat) : Covers (3000 * (N + 1) ^ 2) N where
  tag := Bnd.below N inferInstance rfl rfl
  fields := Bnd.below N inferInstance rfl rfl
  envelope := Bnd.below N inferInstance rfl rfl
  number := Bnd.below N inferInstance rfl rfl
  string := Bnd.below N inferInstance rfl rfl
  text := Bnd.below N inferInstance rfl rfl
  basic := Bnd.below N inferInstance rfl rfl
  ext1 := Bnd.below N inferInstance rfl rfl
  extM := Bnd.below N inferInstance rfl rfl

/-- The weight covers one level of a body structure. -/
theorem amo_body [Quirks] (N fuel n : Nat) : AmoP (60000 * (N + 1) ^ 2) N (bodyFuel fuel n) := by
  have : 1 ≤ (N + 1) ^ 2 := Nat.one_le_pow _ _ (by omega)
  exact amo_bodyFuel (covers N) (by omega) fuel n

theorem cost_body [Quirks] (n : Nat) (x : Bytes) : (body n).cost x = (bodyFuel (x.length + 1) n).cost x := by
  simp only [T.cost, body]

theorem res_body [Quirks] (n : Nat) (x : Bytes) : (body n).res x = (bodyFuel (x.length + 1) n).res x := by
  simp only [T.res, body]

instance [Quirks] (n : Nat) : Bnd (body n) 6 60000 := by
  refine ⟨⟨fun x => ?_, fun x r v h => ?_, by omega⟩⟩
  · rw [cost_body]
    have h := (amo_body x.length (x.length + 1) n).all x (Nat.le_refl _)
    simp only [budget]
    refine le_trans h (le_of_eq ?_)
    ring
  · rw [res_body] at h
    exact le_of_lt ((amo_body x.length (x.length + 1) n).ok x r v (Nat.le_refl _) h).1

instance [Quirks] : Bnd capability 2 2 := by bnd capability

instance [Quirks] : Bnd capabilityData 3 26 := by bnd capabilityData

instance : Bnd uidRange 3 6 := by bnd uidRange

instance : Bnd uidSet 5 30 := by bnd uidSet

instance : Bnd metadataCode 4 44 := by bnd metadataCode

instance : Bnd charsetList 5 35 := by bnd charsetList

instance : Bnd flagPermList 4 37 := by bnd flagPermList

instance : Bnd respCodeApnd 3 17 := by bnd respCodeApnd

instance : Bnd respCodeCopy 5 75 := by bnd respCodeCopy

instance [Quirks] : Bnd respTextCode 5 501 := by bnd respTextCode

instance [Quirks] : Bnd codeKnown 5 503 := by bnd codeKnown

instance : Bnd codeOther 3 4 := by bnd codeOther

instance [Quirks] : Bnd textAfterCode 2 8 := by bnd textAfterCode

instance [Quirks] : Bnd respTextCoded 5 517 := by bnd respTextCoded

instance : Bnd respTextPlain 2 2 := by bnd respTextPlain

instance [Quirks] : Bnd respText 5 519 := by bnd respText

instance : Bnd condAuthKind 1 13 := by bnd condAuthKind

instance [Quirks] : Bnd respCondAuth 5 532 := by bnd respCondAuth

instance [Quirks] : Bnd respCondBye 5 524 := by bnd respCondBye

instance [Quirks] : Bnd greeting 5 1063 := by bnd greeting

instance : Bnd condStateKind 1 13 := by bnd condStateKind

instance [Quirks] : Bnd respCondState 5 532 := by bnd respCondState

instance [Quirks] : Bnd responseTagged 5 540 := by bnd responseTagged

instance [Quirks] : Bnd responseFatal 5 531 := by bnd responseFatal

instance [Quirks] : Bnd responseDone 5 1071 := by bnd responseDone

instance [Quirks] : Bnd emptyContinueReq 1 6 := by bnd emptyContinueReq

instance [Quirks] : Bnd continueBase64 3 3 := by bnd continueBase64

instance [Quirks] : Bnd continueInner 5 529 := by bnd continueInner

instance [Quirks] : Bnd continueReq 5 529 := by bnd continueReq

instance [Quirks] : Bnd statusAttVal 4 105 := by bnd statusAttVal

instance : Bnd flagFetchList 5 40 := by bnd flagFetchList

instance [Quirks] : Bnd msgAttDynamic 5 61 := by bnd msgAttDynamic

instance [Quirks] : Bnd msgBodyExt 5 551 := by bnd msgBodyExt

instance [Quirks] : Bnd msgAttStatic 6 123672 := by bnd msgAttStatic

instance [Quirks] : Bnd msgAtt 7 371209 := by bnd msgAtt

/-- What is between the parentheses of a thread. -/
def threadInner (t : T Thread) : T Thread := alt [do
        let p ← sepList1 sp nzNumber
        let l ← opt (do sp; many2 t)
        return .members p (l.getD []),
      .nested <$> many2 t]

theorem threadInner_spec {W N H : Nat} {t : T Thread} (h : AmoP W N t) (hW : H + 20 ≤ W)
    (hH : ∀ x : Bytes, x.length ≤ N → (sepList1 sp nzNumber).cost x + 10 ≤ H) (y : Bytes) (hy : y.length < N) :
    (threadInner t).cost y ≤ W * y.length + W + H ∧ ∀ r v, (threadInner t).res y = .ok r v → r.length ≤ y.length ∧
      ((threadInner t).cost y + W * r.length ≤ W * y.length + H ∨ ∃ c z, c ≠ 41 ∧ r = c :: z) := by
  have hc := hH y (by omega)
  obtain ⟨hn1, hn2⟩ := h.many2 y (by omega)
  have hb : Bound 4 _ (sepList1 sp nzNumber : T (List Nat)) := (inferInstance : Bnd (sepList1 sp nzNumber : T (List Nat)) _ _).bound
  unfold threadInner
  simp only [alt, cost_orElse, res_orElse]
  rw [cost_bind, res_bind]
  rcases e1 : (sepList1 sp nzNumber).res y with ⟨r1, v1⟩ | _ | _ | k <;> simp only [Res.andThen, Nat.add_zero]
  · have hs := hb.shrinks _ _ _ e1
    rw [cost_bind, res_bind, cost_opt, res_opt, cost_spThen, res_spThen]
    match r1, hs with
    | [], _ => exact ⟨by simp [Res.andThen]; omega, by simp [Res.andThen]⟩
    | c :: z, hs =>
      by_cases hc' : c = 32
      · subst hc'
        simp only [if_true, List.length_cons] at hs ⊢
        obtain ⟨h1, h2⟩ := h.many2 z (by omega)
        have hz : W * (z.length + 1) ≤ W * y.length := Nat.mul_le_mul_left W hs
        rw [Nat.mul_add, Nat.mul_one] at hz
        rcases e2 : (many2 t).res z with ⟨r2, v2⟩ | _ | _ | k <;> simp only [Res.andThen, cost_pure, res_pure, Nat.add_zero]
        · obtain ⟨h3, h4⟩ := h2 _ _ e2
          refine ⟨by omega, fun r v hv => ?_⟩
          simp only [Res.ok.injEq] at hv
          obtain ⟨rfl, _⟩ := hv
          refine ⟨by omega, ?_⟩
          rcases h4 with h4 | ⟨w, h4⟩
          · left; omega
          · right; exact ⟨40, w, by decide, h4⟩
        · exact ⟨by omega, by simp⟩
        · refine ⟨by omega, fun r v hv => ?_⟩
          simp only [Res.ok.injEq] at hv
          obtain ⟨rfl, _⟩ := hv
          exact ⟨hs, Or.inr ⟨32, z, by decide, rfl⟩⟩
        · exact ⟨by omega, by simp⟩
      · simp only [hc', if_false, Res.andThen, cost_pure, res_pure, Nat.add_zero]
        refine ⟨by omega, fun r v hv => ?_⟩
        simp only [Res.ok.injEq] at hv
        obtain ⟨rfl, _⟩ := hv
        have := Nat.mul_le_mul_left W hs
        exact ⟨hs, Or.inl (by omega)⟩
  · exact ⟨by omega, by simp⟩
  · have hf : (fail : T Thread).cost y = 0 := rfl
    have hf' : (fail : T Thread).res y = .error := rfl
    rw [cost_map, res_map]
    rcases e2 : (many2 t).res y with ⟨r2, v2⟩ | _ | _ | k <;> simp only [Res.andThen, Nat.add_zero, hf, hf']
    · refine ⟨by omega, fun r v hv => ?_⟩
      simp only [Res.ok.injEq] at hv
      obtain ⟨rfl, _⟩ := hv
      obtain ⟨h3, h4⟩ := hn2 _ _ e2
      refine ⟨h3, ?_⟩
      rcases h4 with h4 | ⟨w, h4⟩
      · left; omega
      · right; exact ⟨40, w, by decide, h4⟩
    all_goals exact ⟨by omega, by simp⟩
  · exact ⟨by omega, by simp⟩

theorem bound_members : Bound 4 20 (sepList1 sp nzNumber : T (List Nat)) := by
  refine Bnd.bound (self := Bnd.use (r := ?r) (K := ?K) ?h ?hr ?hK)
  case h => infer_instance
  all_goals decide +kernel

/-- The weight covers the numbers of one thread. -/
theorem amo_threadList (W N n : Nat) (hW : 60 * (N + 1) ≤ W) : AmoP W N (threadList n) := by
  induction n with
  | zero => exact ⟨fun x r v _ h => (by cases h), fun x _ => (by show 1 ≤ _; omega), fun x _ _ => ⟨by show 1 ≤ 3; omega, fun r v h => by cases h⟩⟩
  | succ n ih =>
    refine AmoP.wrap (t := threadInner (threadList n)) (H := 20 * (N + 1) + 10) (by omega) (threadInner_spec ih (by omega) fun x hx => ?_)
    have h1 := bound_members.cost x
    simp only [budget, Nat.zero_add, pow_one] at h1
    omega

instance (n : Nat) : Bnd (threadList n) 5 60 := by
  refine ⟨⟨fun x => ?_, fun x r v h => ?_, by omega⟩⟩
  · have := (amo_threadList _ x.length n (Nat.le_refl _)).all x (Nat.le_refl _)
    simp only [budget]
    refine le_trans this (le_of_eq ?_)
    ring
  · exact le_of_lt ((amo_threadList _ x.length n (Nat.le_refl _)).ok x r v (Nat.le_refl _) h).1

/-- The lists of threads have the same degree. -/
instance (priority := high) (n : Nat) : Bnd (many1 (threadList n) : T (List Thread)) 5 60 := by
  refine ⟨⟨fun x => ?_, fun x r v h => ?_, by omega⟩⟩
  · have := ((amo_threadList _ x.length n (Nat.le_refl _)).many1 x (Nat.le_refl _)).1
    simp only [budget]
    refine le_trans this (le_of_eq ?_)
    ring
  · exact (((amo_threadList _ x.length n (Nat.le_refl _)).many1 x (Nat.le_refl _)).2 r v h).1

instance : Bnd threadData 5 69 := by bnd threadData

instance : Bnd delimiter 1 14 := by bnd delimiter

instance [Quirks] : Bnd namespaceExt 5 122 := by bnd namespaceExt

instance [Quirks] : Bnd namespaceDescr 6 293 := by bnd namespaceDescr

instance [Quirks] : Bnd namespaces 7 889 := by bnd namespaces

instance [Quirks] : Bnd quotaSp 3 8 := by bnd quotaSp

instance [Quirks] : Bnd quotaResource 3 22 := by bnd quotaResource

instance [Quirks] : Bnd metadataItems 5 334 := by bnd metadataItems

instance [Quirks] : Bnd mailboxList 4 69 := by bnd mailboxList

instance : Bnd searchSortModSeq 3 14 := by bnd searchSortModSeq

instance [Quirks] : Bnd searchNumbers 4 26 := by bnd searchNumbers

instance (b : Bool) : Bnd (optSpIf b) 1 2 := by bnd optSpIf

instance [Quirks] : Bnd searchData 4 35 := by bnd searchData

instance [Quirks] : Bnd sortData 4 31 := by bnd sortData

instance [Quirks] : Bnd statusItems 5 326 := by bnd statusItems

instance [Quirks] : Bnd statusData 5 365 := by bnd statusData

instance [Quirks] : Bnd metadataResp 5 376 := by bnd metadataResp

instance [Quirks] : Bnd namespaceResponse 7 2682 := by bnd namespaceResponse

instance [Quirks] : Bnd quotarootResponse 5 104 := by bnd quotarootResponse

instance [Quirks] : Bnd quotaResponse 4 113 := by bnd quotaResponse

instance [Quirks] : Bnd mailboxData 7 3980 := by bnd mailboxData

instance [Quirks] (n : NzU32) : Bnd (messageDataTail n) 7 371224 := by bnd messageDataTail

instance : Bnd vanishedData 5 70 := by bnd vanishedData

instance [Quirks] : Bnd messageData 7 371298 := by bnd messageData

instance [Quirks] : Bnd enableData 3 18 := by bnd enableData

instance [Quirks] : Bnd idResponse 5 200 := by bnd idResponse

instance [Quirks] : Bnd responseDataInner 7 376578 := by bnd responseDataInner

instance [Quirks] : Bnd responseData 7 376585 := by bnd responseData

instance [q : Quirks] : Bnd response 7 400000 := by
  unfold response
  split
  · refine Bnd.use (r := ?r) (K := ?K) ?h ?hr ?hK
    case h => simp only [List.cons_append, List.nil_append]; infer_instance
    all_goals decide +kernel
  · refine Bnd.use (r := ?r2) (K := ?K2) ?h2 ?hr2 ?hK2
    case h2 => simp only [List.nil_append]; infer_instance
    all_goals decide +kernel

end Imap.Timed
