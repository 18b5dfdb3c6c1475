import Verif.TimedAmor
import Verif.TimedCommand
/-
The ranks and factors of the parsers for commands (property C65).
-/
namespace Imap.Timed

variable {α : Type}

set_option synthInstance.maxSize 100000
set_option synthInstance.maxHeartbeats 0
set_option maxHeartbeats 0

instance : Bnd number 3 2 := by bnd number

instance : Bnd number64 3 2 := by bnd number64

instance : Bnd nzNumber 3 2 := by bnd nzNumber

instance : Bnd quoted 3 6 := by bnd quoted

instance : Bnd quotedUtf8 3 6 := by bnd quotedUtf8

instance : Bnd quotedChar 1 6 := by bnd quotedChar

instance [Quirks] (start : Bytes) : Bnd (literalHdr start) 3 (start.length + 11) := by
  refine Bnd.use (r := ?r) (K := ?K) ?h ?hr ?hK
  case h => unfold literalHdr; infer_instance
  · decide +kernel
  · simp

instance [Quirks] : Bnd literal 3 15 := by
  refine Bnd.use (r := seqRank 3 (seqRank 1 1)) (K := 12 + (2 + 1)) ⟨bound_bind ?_ fun v => ?_⟩ (by decide) (by decide)
  · exact (inferInstance : Bnd (literalHdr b!"{") 3 12).bound
  · refine bound_bind (inferInstance : Bnd (literalData v.1 v.2) 1 2).bound fun d => ?_
    split
    · exact (bound_pure _).mono (by omega) (by omega)
    · exact (inferInstance : Bnd (failWith _) 1 1).bound

instance [Quirks] : Bnd literal8 3 15 := by
  refine Bnd.use (r := seqRank 3 (seqRank 1 0)) (K := 13 + (2 + 0)) ⟨bound_bind ?_ fun v => ?_⟩ (by decide) (by decide)
  · exact (inferInstance : Bnd (literalHdr b!"~{") 3 13).bound
  · exact bound_bind (inferInstance : Bnd (literalData v.1 v.2) 1 2).bound fun d => bound_pure _

instance [Quirks] : Bnd string 4 27 := by bnd string

instance [Quirks] : Bnd astring 4 29 := by bnd astring

instance : Bnd atom 2 2 := by bnd atom

instance : Bnd nil 1 4 := by bnd nil

instance [Quirks] : Bnd nstring 4 31 := by bnd nstring

instance : Bnd text 2 2 := by bnd text

instance : Bnd base64 3 7 := by bnd base64

instance : Bnd charset 4 8 := by bnd charset

instance : Bnd tagImap 2 2 := by bnd tagImap

instance : Bnd seqNumber 4 4 := by bnd seqNumber

instance : Bnd seqRange 4 10 := by bnd seqRange

instance : Bnd sequenceSet 5 48 := by bnd sequenceSet

instance [Quirks] : Bnd mailbox 4 29 := by bnd mailbox

instance [Quirks] : Bnd listMailbox 4 29 := by bnd listMailbox

instance : Bnd flag 2 6 := by bnd flag

instance : Bnd flagList 3 28 := by bnd flagList

theorem cost_flagFetch (x : Bytes) :
    flagFetch.cost x ≤ (recognize (do char 92; atom)).cost x + (FlagFetch.flag <$> flag : T FlagFetch).cost x := by
  unfold flagFetch T.cost
  simp only [run_eq]
  rcases (recognize (do char 92; atom)).res x with ⟨r, v⟩ | _ | _ | k <;> simp only
  · split
    · exact Nat.le_add_right _ _
    · exact Nat.le_refl _
  all_goals exact Nat.le_refl _

instance : Bnd flagFetch 4 10 := by
  have h1 : Bound 2 4 (recognize (do char 92; atom) : T Bytes) := (inferInstance : Bnd (recognize (do char 92; atom) : T Bytes) _ _).bound
  have h2 : Bound 2 6 (FlagFetch.flag <$> flag : T FlagFetch) := (inferInstance : Bnd (FlagFetch.flag <$> flag : T FlagFetch) _ _).bound
  refine ⟨⟨fun x => ?_, fun x r v h => ?_, by omega⟩⟩
  · have h3 := (h1.mono (show 2 ≤ 4 by omega) (Nat.le_refl _)).cost x
    have h4 := (h2.mono (show 2 ≤ 4 by omega) (Nat.le_refl _)).cost x
    have := cost_flagFetch x
    simp only [budget] at h3 h4 ⊢
    omega
  · unfold flagFetch T.res at h
    simp only [run_eq] at h
    rcases e : (recognize (do char 92; atom)).res x with ⟨r, v⟩ | _ | _ | k <;> rw [e] at h <;> simp only at h
    · split at h
      · simp only [Res.ok.injEq] at h
        rw [← h.1]
        exact h1.shrinks _ _ _ e
      · exact h2.shrinks _ _ _ h
    all_goals exact h2.shrinks _ _ _ h

instance : Bnd flagPerm 2 9 := by bnd flagPerm

instance : Bnd mbxListFlags 3 18 := by bnd mbxListFlags

instance : Bnd digit12 1 3 := by bnd digit12

instance : Bnd digit2 1 3 := by bnd digit2

instance : Bnd digit4 1 5 := by bnd digit4

instance : Bnd dateMonth 1 48 := by bnd dateMonth

instance : Bnd dateText 1 60 := by bnd dateText

instance : Bnd date 1 124 := by bnd date

instance : Bnd time 1 13 := by bnd time

instance : Bnd dateDayFixed 1 7 := by bnd dateDayFixed

instance : Bnd zone 1 10 := by bnd zone

instance (d : Option NaiveDate) (t : Option (Nat × Nat × Nat)) (z : Option Int) : Bnd (mkDateTime d t z) 1 1 := by
  unfold mkDateTime
  split
  · exact ⟨(bound_pure _).mono (by omega) (by omega)⟩
  · infer_instance

instance : Bnd dateTime 1 96 := by bnd dateTime

instance : Bnd authType 2 2 := by bnd authType

instance [Quirks] : Bnd authenticateData 4 17 := by bnd authenticateData

instance [Quirks] : Bnd idleDone 1 9 := by bnd idleDone

instance [Quirks] : Bnd statusAtt 1 81 := by bnd statusAtt

instance [Quirks] : Bnd headerList 5 97 := by bnd headerList

instance [Quirks] : Bnd sectionMsgtext 5 242 := by bnd sectionMsgtext

instance : Bnd sectionPart 4 12 := by bnd sectionPart

instance [Quirks] : Bnd sectionText 5 247 := by bnd sectionText

instance [Quirks] : Bnd sectionSpec 5 503 := by bnd sectionSpec

instance [Quirks] : Bnd «section» 5 507 := by bnd «section»

instance : Bnd sectionBinary 4 16 := by bnd sectionBinary

instance : Bnd partial_ 3 10 := by bnd partial_

instance [Quirks] : Bnd fetchAtt 5 1251 := by bnd fetchAtt

instance [Quirks] : Bnd macroOrNames 6 5028 := by bnd macroOrNames

instance : Bnd attrFlag 2 7 := by bnd attrFlag

instance : Bnd entryTypeReq 1 16 := by bnd entryTypeReq

instance : Bnd entryName 3 18 := by bnd entryName

instance : Bnd searchModseqExt 3 38 := by bnd searchModseqExt

instance : Bnd modSequenceValue 3 2 := by bnd modSequenceValue

instance : Bnd modSequenceValzer 3 2 := by bnd modSequenceValzer

instance : Bnd searchModsequence 4 49 := by bnd searchModsequence

instance : Bnd dateSome 1 124 := by bnd dateSome

/-- The alternatives of `searchKey` before the recursive ones. -/
def searchPre [Quirks] : List (T SearchKey) :=
  [value .all (tagNC b!"ALL"),
    value .answered (tagNC b!"ANSWERED"),
    .bcc <$> (do tagNC b!"BCC"; sp; astring),
    .before <$> (do tagNC b!"BEFORE"; sp; dateSome),
    .body <$> (do tagNC b!"BODY"; sp; astring),
    .cc <$> (do tagNC b!"CC"; sp; astring),
    value .deleted (tagNC b!"DELETED"),
    value .flagged (tagNC b!"FLAGGED"),
    .from_ <$> (do tagNC b!"FROM"; sp; astring),
    .keyword <$> (do tagNC b!"KEYWORD"; sp; atom),
    value .new (tagNC b!"NEW"),
    value .old (tagNC b!"OLD"),
    .on <$> (do tagNC b!"ON"; sp; dateSome),
    value .recent (tagNC b!"RECENT"),
    value .seen (tagNC b!"SEEN"),
    .since <$> (do tagNC b!"SINCE"; sp; dateSome),
    .subject <$> (do tagNC b!"SUBJECT"; sp; astring),
    .text <$> (do tagNC b!"TEXT"; sp; astring),
    .to <$> (do tagNC b!"TO"; sp; astring),
    value .unanswered (tagNC b!"UNANSWERED"),
    value .undeleted (tagNC b!"UNDELETED"),
    value .unflagged (tagNC b!"UNFLAGGED"),
    .unkeyword <$> (do tagNC b!"UNKEYWORD"; sp; atom),
    value .unseen (tagNC b!"UNSEEN"),
    value .draft (tagNC b!"DRAFT"),
    do tagNC b!"HEADER"; sp; let k ← astring; sp; let v ← astring; return .header k v,
    .larger <$> (do tagNC b!"LARGER"; sp; number)]

/-- The alternatives of `searchKey` between the recursive ones. -/
def searchMid [Quirks] : List (T SearchKey) :=
  [.sentBefore <$> (do tagNC b!"SENTBEFORE"; sp; dateSome),
    .sentOn <$> (do tagNC b!"SENTON"; sp; dateSome),
    .sentSince <$> (do tagNC b!"SENTSINCE"; sp; dateSome),
    .smaller <$> (do tagNC b!"SMALLER"; sp; number),
    .uid <$> (do tagNC b!"UID"; sp; sequenceSet),
    value .undraft (tagNC b!"UNDRAFT"),
    gate Quirks.extCondstoreQresync ((fun x => .modSequence x.1 x.2) <$> searchModsequence),
    .sequenceSet <$> sequenceSet]

/-- NOT. -/
def notArm (t : T SearchKey) : T SearchKey := .not <$> (do tagNC b!"NOT"; sp; t)

/-- OR. -/
def orArm (t : T SearchKey) : T SearchKey := do tagNC b!"OR"; sp; let a ← t; sp; let b ← t; return .or a b

/-- A parenthesized list of search keys. -/
def andArm (t : T SearchKey) : T SearchKey := .and <$> (do tag b!"("; let ks ← sepList1 sp t; tag b!")"; return ks)

theorem searchKey_succ [Quirks] (n : Nat) :
    searchKey (n + 1) = alt (searchPre ++ (notArm (searchKey n) :: orArm (searchKey n) :: (searchMid ++ [andArm (searchKey n)]))) := rfl

set_option synthInstance.maxSize 100000 in
set_option synthInstance.maxHeartbeats 0 in
set_option maxHeartbeats 0 in
theorem bound_searchPre [Quirks] : Bound 4 1000 (alt searchPre) := by
  refine Bnd.bound (self := Bnd.use (r := ?r) (K := ?K) ?h ?hr ?hK)
  case h => unfold searchPre; infer_instance
  all_goals decide +kernel

set_option synthInstance.maxSize 100000 in
set_option synthInstance.maxHeartbeats 0 in
set_option maxHeartbeats 0 in
theorem bound_searchMid [Quirks] : Bound 5 1000 (alt searchMid) := by
  refine Bnd.bound (self := Bnd.use (r := ?r) (K := ?K) ?h ?hr ?hK)
  case h => unfold searchMid; infer_instance
  all_goals decide +kernel

/-- A keyword followed by a space. -/
theorem keyword_cases (c : UInt8) (w : Bytes) (t : T α) (x : Bytes) :
    ((do tagNC (c :: w); sp; t : T α).cost x ≤ w.length + 4 ∧
      ((do tagNC (c :: w); sp; t : T α).res x = .incomplete ∨ (do tagNC (c :: w); sp; t : T α).res x = .error)) ∨
    (∃ b y z, x = b :: y ∧ lower c = lower b ∧ x.length = z.length + w.length + 2 ∧
      (do tagNC (c :: w); sp; t : T α).cost x ≤ w.length + 4 + t.cost z ∧ (do tagNC (c :: w); sp; t : T α).res x = t.res z) := by
  have hlen : ∀ (p x z : Bytes) u, Imap.tagNC p x = .ok z u → x.length = z.length + p.length := by
    intro p
    induction p with
    | nil => intro x z u h; simp only [Imap.tagNC, Res.ok.injEq] at h; simp [h.1]
    | cons c w ih =>
      intro x z u h
      cases x with
      | nil => simp [Imap.tagNC] at h
      | cons b y =>
        simp only [Imap.tagNC] at h
        split at h
        · have := ih _ _ _ h; simp; omega
        · cases h
  have hno : ∀ (p x : Bytes) k, Imap.tagNC p x ≠ .failure k := by
    intro p
    induction p with
    | nil => intro x k h; simp [Imap.tagNC] at h
    | cons c w ih =>
      intro x k h
      cases x with
      | nil => simp [Imap.tagNC] at h
      | cons b y =>
        simp only [Imap.tagNC] at h
        split at h
        · exact ih _ _ h
        · cases h
  rw [cost_bind, res_bind]
  have hc : (tagNC (c :: w)).cost x ≤ w.length + 2 := Nat.succ_le_succ (looksTag_le _ _ _)
  have hr : (tagNC (c :: w)).res x = Imap.tagNC (c :: w) x := rfl
  rw [hr]
  rcases e : Imap.tagNC (c :: w) x with ⟨z, u⟩ | _ | _ | k <;> simp only [Res.andThen]
  · have hl := hlen _ _ _ _ e
    rw [cost_spThen, res_spThen]
    match z, hl with
    | [], _ => exact Or.inl ⟨by simp only; omega, Or.inl rfl⟩
    | d :: z', hl =>
      by_cases hd : d = 32
      · subst hd
        right
        match x, e with
        | [], e => simp [Imap.tagNC] at e
        | b :: y, e =>
          refine ⟨b, y, z', rfl, ?_, ?_, ?_, ?_⟩
          · simp only [Imap.tagNC] at e
            split at e
            · assumption
            · cases e
          · simp only [List.length_cons] at hl ⊢; omega
          · simp only [if_true]; omega
          · simp
      · simp only [hd, if_false]
        exact Or.inl ⟨by omega, Or.inr trivial⟩
  · exact Or.inl ⟨by omega, Or.inl trivial⟩
  · exact Or.inl ⟨by omega, Or.inr trivial⟩
  · exact absurd e (hno _ _ _)

set_option maxRecDepth 10000 in
theorem letter_n {b : UInt8} (h : lower 78 = lower b) : b = 78 ∨ b = 110 :=
  (forall_byte (P := fun b => lower 78 = lower b → b = 78 ∨ b = 110) (by decide)) b h

set_option maxRecDepth 10000 in
theorem letter_o {b : UInt8} (h : lower 79 = lower b) : b = 79 ∨ b = 111 :=
  (forall_byte (P := fun b => lower 79 = lower b → b = 79 ∨ b = 111) (by decide)) b h

theorem Amo.not {W N : Nat} {t : T SearchKey} (h : Amo W N t) : Arm W N (notArm t) (fun b => b = 78 ∨ b = 110) := by
  refine Arm.map _ fun x hx => ?_
  rcases keyword_cases 78 b!"OT" t x with ⟨h1, h2⟩ | ⟨b, y, z, e, hb, hl, h1, h2⟩
  · left
    exact ⟨le_trans h1 (by decide), h2⟩
  · right
    refine ⟨b, y, e, letter_n hb, ?_⟩
    have hl' : x.length = z.length + 4 := hl
    have h1' : (do tagNC b!"NOT"; sp; t : T SearchKey).cost x ≤ 6 + t.cost z := h1
    have ha := h.all z (by omega)
    have e' : W * x.length = W * z.length + W * 4 := by rw [hl', Nat.mul_add]
    refine ⟨by show (do tagNC b!"NOT"; sp; t : T SearchKey).cost x ≤ _; omega, fun r v hv => ?_⟩
    have hv' : t.res z = .ok r v := by rw [← h2]; exact hv
    obtain ⟨h3, h4⟩ := h.ok z r v (by omega) hv'
    exact ⟨by omega, by show (do tagNC b!"NOT"; sp; t : T SearchKey).cost x + _ + _ ≤ _; omega⟩

theorem Amo.or {W N : Nat} {t : T SearchKey} (h : Amo W N t) : Arm W N (orArm t) (fun b => b = 79 ∨ b = 111) := by
  intro x hx
  rcases keyword_cases 79 b!"R" (do let a ← t; sp; let b ← t; return .or a b : T SearchKey) x with ⟨h1, h2⟩ | ⟨b, y, z, e, hb, hl, h1, h2⟩
  · left
    exact ⟨le_trans h1 (by decide), h2⟩
  · right
    refine ⟨b, y, e, letter_o hb, ?_⟩
    have hl' : x.length = z.length + 3 := hl
    have h1' : (orArm t).cost x ≤ 5 + (do let a ← t; sp; let b ← t; return .or a b : T SearchKey).cost z := h1
    have h2' : (orArm t).res x = (do let a ← t; sp; let b ← t; return .or a b : T SearchKey).res z := h2
    have ha := h.all z (by omega)
    have e' : W * x.length = W * z.length + W * 3 := by rw [hl', Nat.mul_add]
    rw [h2']
    rw [cost_bind] at h1'
    rw [res_bind]
    rcases e1 : t.res z with ⟨r1, v1⟩ | _ | _ | k <;> rw [e1] at h1' <;> simp only [Res.andThen] at h1' ⊢
    · obtain ⟨h3, h4⟩ := h.ok z r1 v1 (by omega) e1
      rw [cost_spThen] at h1'
      rw [res_spThen]
      match r1, h1', h3, h4 with
      | [], h1', h3, h4 => exact ⟨by simp only at h1'; omega, by simp⟩
      | d :: r', h1', h3, h4 =>
        by_cases hd : d = 32
        · subst hd
          simp only [if_true, List.length_cons] at h1' h3 h4 ⊢
          have e4 : W * (r'.length + 1) = W * r'.length + W := by rw [Nat.mul_add, Nat.mul_one]
          have hb := h.all r' (by omega)
          rw [cost_bind] at h1'
          rw [res_bind]
          rcases e2 : t.res r' with ⟨r2, v2⟩ | _ | _ | k <;> rw [e2] at h1' <;> simp only [Res.andThen, cost_pure, res_pure] at h1' ⊢
          · obtain ⟨h5, h6⟩ := h.ok r' r2 v2 (by omega) e2
            refine ⟨by omega, fun r v hv => ?_⟩
            simp only [Res.ok.injEq] at hv
            obtain ⟨rfl, _⟩ := hv
            exact ⟨by omega, by omega⟩
          all_goals exact ⟨by omega, by simp⟩
        · simp only [hd, if_false] at h1' ⊢
          exact ⟨by omega, by simp⟩
    all_goals exact ⟨by omega, by simp⟩

theorem Amo.and {W N : Nat} {t : T SearchKey} (hW : 5 ≤ W) (h : Amo W N t) : Arm W N (andArm t) (· = 40) := (h.paren hW).map _

theorem res_gate_error {b : Bool} {t : T α} {x : Bytes} (h : t.res x = .error) : (gate b t).res x = .error := by
  cases b
  · rfl
  · exact h

theorem alt_error {ts : List (T α)} {x : Bytes} (h : ∀ t ∈ ts, t.res x = .error) : (alt ts).res x = .error := by
  induction ts with
  | nil => rfl
  | cons t ts ih =>
    simp only [alt, res_orElse]
    rw [h t (by simp)]
    exact ih fun u hu => h u (by simp [hu])

theorem searchMid_error [Quirks] {b : UInt8} (hb : b = 78 ∨ b = 110 ∨ b = 79 ∨ b = 111) (y : Bytes) : (alt searchMid).res (b :: y) = .error := by
  apply alt_error
  unfold searchMid
  simp only [List.mem_cons, List.not_mem_nil, or_false, forall_eq_or_imp, forall_eq]
  rcases hb with rfl | rfl | rfl | rfl <;>
    exact ⟨rfl, rfl, rfl, rfl, rfl, rfl, res_gate_error rfl, rfl⟩

/-- The weight covers the alternatives without recursion. -/
theorem amo_searchKey [Quirks] (W N n : Nat) (hW : 3000 * (N + 1) ^ 2 ≤ W) : Amo W N (searchKey n) := by
  have hN : 1 ≤ (N + 1) ^ 2 := Nat.one_le_pow _ _ (by omega)
  induction n with
  | zero => exact ⟨fun x r v _ h => (by cases h), fun x _ => (by show 1 ≤ _; omega)⟩
  | succ n ih =>
    have hp : ∀ x : Bytes, x.length ≤ N → (alt searchPre).cost x ≤ 1000 * (N + 1) ^ 2 := fun x hx => by
      have h1 := (bound_searchPre.up).cost x
      simp only [budget] at h1
      exact le_trans h1 (Nat.mul_le_mul_left _ (Nat.pow_le_pow_left (by omega) _))
    have hm : ∀ x : Bytes, x.length ≤ N → (alt searchMid).cost x ≤ 1000 * (N + 1) ^ 2 := fun x hx => by
      have h1 := bound_searchMid.cost x
      simp only [budget] at h1
      exact le_trans h1 (Nat.mul_le_mul_left _ (Nat.pow_le_pow_left (by omega) _))
    have key : ∀ x : Bytes, x.length ≤ N → (searchKey (n + 1)).cost x ≤ W * x.length + W ∧ ∀ r v, (searchKey (n + 1)).res x = .ok r v →
        r.length ≤ x.length ∧ (searchKey (n + 1)).cost x + 5 + W * r.length ≤ W * x.length + W := by
      intro x hx
      have hp := hp x hx
      have hm := hm x hx
      rw [searchKey_succ, cost_alt_append, res_alt_append]
      rcases e1 : (alt searchPre).res x with ⟨r1, v1⟩ | _ | _ | k <;> simp only [Nat.add_zero]
      · refine ⟨by omega, fun r v hv => ?_⟩
        simp only [Res.ok.injEq] at hv
        obtain ⟨rfl, _⟩ := hv
        have hs := bound_searchPre.shrinks _ _ _ e1
        have := Nat.mul_le_mul_left W hs
        exact ⟨hs, by omega⟩
      · exact ⟨by omega, by simp⟩
      · simp only [alt, cost_orElse, res_orElse]
        have small : ∀ (t : T SearchKey) (hd : UInt8 → Prop), Arm W N t hd → (∀ b y, x = b :: y → ¬ hd b) →
            t.cost x ≤ 9 ∧ (t.res x = .incomplete ∨ t.res x = .error) := by
          intro t hd ha hn
          rcases ha x hx with h | ⟨b, y, e, hb, _⟩
          · exact h
          · exact absurd hb (hn b y e)
        have ho := small _ _ ih.or
        have hand := small _ _ (ih.and (by omega))
        have herr : ∀ t : T SearchKey, (∃ b y, x = b :: y ∧ (b = 78 ∨ b = 110 ∨ b = 79 ∨ b = 111)) →
            (alt (searchMid ++ [andArm (searchKey n)])).cost x ≤ 1000 * (N + 1) ^ 2 + 9 ∧
            ∀ r v, (alt (searchMid ++ [andArm (searchKey n)])).res x ≠ .ok r v := by
          rintro _ ⟨b, y, rfl, hb⟩
          rw [cost_alt_append, res_alt_append, searchMid_error hb]
          simp only [alt, cost_orElse, res_orElse]
          obtain ⟨h1, h2⟩ := hand (by rintro b' y' e; obtain ⟨rfl, rfl⟩ := List.cons.inj e; rintro rfl; simp at hb)
          rcases h2 with h2 | h2 <;> rw [h2] <;> simp only [Nat.add_zero]
          · exact ⟨by omega, by simp⟩
          · refine ⟨?_, ?_⟩
            · show _ + (_ + (0 : Nat)) ≤ _
              omega
            · intro r v h; cases h
        rcases ih.not x hx with ⟨h1, h2⟩ | ⟨b, y, e, hb, h1, h2⟩
        · rcases h2 with h2 | h2 <;> rw [h2] <;> simp only [Nat.add_zero]
          · exact ⟨by omega, by simp⟩
          · rcases ih.or x hx with ⟨h3, h4⟩ | ⟨b, y, e, hb, h3, h4⟩
            · rcases h4 with h4 | h4 <;> rw [h4] <;> simp only [Nat.add_zero]
              · exact ⟨by omega, by simp⟩
              · rw [cost_alt_append, res_alt_append]
                rcases e5 : (alt searchMid).res x with ⟨r1, v1⟩ | _ | _ | k <;> simp only [Nat.add_zero]
                · refine ⟨by omega, fun r v hv => ?_⟩
                  simp only [Res.ok.injEq] at hv
                  obtain ⟨rfl, _⟩ := hv
                  have hs := bound_searchMid.shrinks _ _ _ e5
                  have := Nat.mul_le_mul_left W hs
                  exact ⟨hs, by omega⟩
                · exact ⟨by omega, by simp⟩
                · simp only [alt, cost_orElse, res_orElse]
                  have hf : (fail : T SearchKey).cost x = 0 := rfl
                  have hf' : (fail : T SearchKey).res x = .error := rfl
                  rcases ih.and (by omega) x hx with ⟨h5, h6⟩ | ⟨b, y, e, hb, h5, h6⟩
                  · rcases h6 with h6 | h6 <;> rw [h6] <;> simp only [Nat.add_zero, hf, hf']
                    · exact ⟨by omega, by simp⟩
                    · exact ⟨by omega, by simp⟩
                  · rcases e6 : (andArm (searchKey n)).res x with ⟨r1, v1⟩ | _ | _ | k <;> simp only [Nat.add_zero, hf, hf']
                    · refine ⟨by omega, fun r v hv => ?_⟩
                      simp only [Res.ok.injEq] at hv
                      obtain ⟨rfl, _⟩ := hv
                      obtain ⟨h7, h8⟩ := h6 _ _ e6
                      exact ⟨h7, by omega⟩
                    all_goals exact ⟨by omega, by simp⟩
                · exact ⟨by omega, by simp⟩
            · rcases e5 : (orArm (searchKey n)).res x with ⟨r1, v1⟩ | _ | _ | k <;> simp only [Nat.add_zero]
              · refine ⟨by omega, fun r v hv => ?_⟩
                simp only [Res.ok.injEq] at hv
                obtain ⟨rfl, _⟩ := hv
                obtain ⟨h7, h8⟩ := h4 _ _ e5
                exact ⟨h7, by omega⟩
              · exact ⟨by omega, by simp⟩
              · obtain ⟨h7, h8⟩ := herr (orArm (searchKey n)) ⟨b, y, e, by tauto⟩
                exact ⟨by omega, fun r v hv => absurd hv (h8 r v)⟩
              · exact ⟨by omega, by simp⟩
        · rcases e5 : (notArm (searchKey n)).res x with ⟨r1, v1⟩ | _ | _ | k <;> simp only [Nat.add_zero]
          · refine ⟨by omega, fun r v hv => ?_⟩
            simp only [Res.ok.injEq] at hv
            obtain ⟨rfl, _⟩ := hv
            obtain ⟨h7, h8⟩ := h2 _ _ e5
            exact ⟨h7, by omega⟩
          · exact ⟨by omega, by simp⟩
          · obtain ⟨h7, h8⟩ := herr (orArm (searchKey n)) ⟨b, y, e, by tauto⟩
            obtain ⟨h9, h10⟩ := ho (by
              rintro b' y' e'
              rw [e] at e'
              obtain ⟨rfl, rfl⟩ := List.cons.inj e'
              rcases hb with rfl | rfl <;> decide)
            rcases h10 with h10 | h10 <;> rw [h10] <;> simp only [Nat.add_zero]
            · exact ⟨by omega, by simp⟩
            · exact ⟨by omega, fun r v hv => absurd hv (h8 r v)⟩
          · exact ⟨by omega, by simp⟩
      · exact ⟨by omega, by simp⟩
    exact ⟨fun x r v hx h => (key x hx).2 r v h, fun x hx => (key x hx).1⟩

instance [Quirks] (n : Nat) : Bnd (searchKey n) 6 3000 := by
  refine ⟨⟨fun x => ?_, fun x r v h => ?_, by omega⟩⟩
  · have := (amo_searchKey _ x.length n (Nat.le_refl _)).all x (Nat.le_refl _)
    simp only [budget]
    refine le_trans this (le_of_eq ?_)
    ring
  · exact ((amo_searchKey _ x.length n (Nat.le_refl _)).ok x r v (Nat.le_refl _) h).1

/-- The lists of search keys have the same degree. -/
instance (priority := high) [Quirks] (n : Nat) : Bnd (sepList1 sp (searchKey n)) 6 3000 := by
  have hN (x : Bytes) : 1 ≤ (x.length + 1) ^ 2 := Nat.one_le_pow _ _ (by omega)
  refine ⟨⟨fun x => ?_, fun x r v h => ?_, by omega⟩⟩
  · have := ((amo_searchKey _ x.length n (Nat.le_refl _)).list (by have := hN x; omega) x (Nat.le_refl _)).1
    simp only [budget]
    refine le_trans this (le_of_eq ?_)
    ring
  · exact (((amo_searchKey _ x.length n (Nat.le_refl _)).list (by have := hN x; omega) x (Nat.le_refl _)).2 r v h).1

instance [Quirks] : Bnd searchCriteria 6 3020 := by bnd searchCriteria

instance [Quirks] : Bnd qresync 5 172 := by bnd qresync

instance [Quirks] : Bnd selectParam 5 182 := by bnd selectParam

instance [Quirks] : Bnd selectParams 6 557 := by bnd selectParams

instance [Quirks] : Bnd fetchModifier 4 25 := by bnd fetchModifier

instance [Quirks] : Bnd fetchModifiers 5 86 := by bnd fetchModifiers

instance [Quirks] : Bnd storeModifier 3 18 := by bnd storeModifier

instance [Quirks] : Bnd storeModifiers 4 65 := by bnd storeModifiers

instance : Bnd storeAttFlags 4 72 := by bnd storeAttFlags

instance [Quirks] : Bnd capabilityEnable 2 2 := by bnd capabilityEnable

instance : Bnd resourceName 2 2 := by bnd resourceName

instance : Bnd setquotaResource 3 6 := by bnd setquotaResource

instance : Bnd sortKey 1 59 := by bnd sortKey

instance : Bnd sortCriterion 1 68 := by bnd sortCriterion

instance : Bnd sortCriteria 3 214 := by bnd sortCriteria

instance : Bnd threadAlg 2 2 := by bnd threadAlg

instance [Quirks] : Bnd idParam 4 60 := by bnd idParam

instance [Quirks] : Bnd idParamsList 5 196 := by bnd idParamsList

instance [Quirks] : Bnd idCommand 5 200 := by bnd idCommand

instance [Quirks] : Bnd entry 4 29 := by bnd entry

instance [Quirks] : Bnd imapValue 4 46 := by bnd imapValue

instance [Quirks] : Bnd entryValue 4 77 := by bnd entryValue

instance [Quirks] : Bnd entryValues 5 241 := by bnd entryValues

instance [Quirks] : Bnd entries 5 126 := by bnd entries

instance : Bnd getmetadataOption 4 31 := by bnd getmetadataOption

instance : Bnd getmetadataOptions 5 103 := by bnd getmetadataOptions

instance [Quirks] : Bnd append 4 197 := by bnd append

instance [Quirks] : Bnd create 4 37 := by bnd create

instance [Quirks] : Bnd delete 4 37 := by bnd delete

instance [Quirks] : Bnd examine 6 595 := by bnd examine

instance [Quirks] : Bnd list 4 66 := by bnd list

instance [Quirks] : Bnd lsub 4 66 := by bnd lsub

instance [Quirks] : Bnd rename 4 68 := by bnd rename

instance [Quirks] : Bnd select 6 594 := by bnd select

instance [Quirks] : Bnd status 4 291 := by bnd status

instance [Quirks] : Bnd subscribe 4 40 := by bnd subscribe

instance [Quirks] : Bnd unsubscribe 4 42 := by bnd unsubscribe

instance [Quirks] : Bnd enable 3 21 := by bnd enable

instance : Bnd compress 1 18 := by bnd compress

instance [Quirks] : Bnd getquota 4 39 := by bnd getquota

instance [Quirks] : Bnd getquotaroot 4 43 := by bnd getquotaroot

instance [Quirks] : Bnd setquota 4 68 := by bnd setquota

instance [Quirks] : Bnd setmetadata 5 286 := by bnd setmetadata

instance [Quirks] : Bnd getmetadata 5 276 := by bnd getmetadata

instance [Quirks] : Bnd commandAny 5 223 := by bnd commandAny

instance [Quirks] : Bnd commandAuth 6 2799 := by bnd commandAuth

instance [Quirks] : Bnd login 4 68 := by bnd login

instance : Bnd authenticate 4 27 := by bnd authenticate

instance [Quirks] : Bnd commandNonauth 4 104 := by bnd commandNonauth

instance : Bnd uidExpunge 5 61 := by bnd uidExpunge

instance [Quirks] : Bnd copy 5 86 := by bnd copy

instance [Quirks] : Bnd move 5 86 := by bnd move

instance [Quirks] : Bnd fetch 6 5172 := by bnd fetch

instance [Quirks] : Bnd store 5 195 := by bnd store

instance [Quirks] : Bnd search 6 3050 := by bnd search

instance [Quirks] : Bnd sort 6 3247 := by bnd sort

instance [Quirks] : Bnd thread 6 3037 := by bnd thread

instance [Quirks] : Bnd uidBody 6 8589 := by bnd uidBody

instance [Quirks] : Bnd uid 6 8595 := by bnd uid

instance [Quirks] : Bnd commandSelect 6 23558 := by bnd commandSelect

instance [Quirks] : Bnd commandBody 6 26688 := by bnd commandBody

instance [Quirks] : Bnd command 6 26692 := by
  refine Bnd.use (r := seqRank 2 (seqRank 1 6)) (K := 2 + (2 + 26688)) ⟨bound_bind (inferInstance : Bnd tagImap 2 2).bound fun t =>
    bound_bind (inferInstance : Bnd sp 1 2).bound fun _ => ?_⟩ (by decide +kernel) (by decide +kernel)
  have h : Bound 6 26688 (do let b ← commandBody; return ⟨t, b⟩ : T Command) :=
    (inferInstance : Bnd (do let b ← commandBody; return ⟨t, b⟩ : T Command) _ _).bound
  refine ⟨fun x => h.cost x, fun x r v e => h.shrinks x r v ?_, by omega⟩
  have e' : fillTag t ((do let b ← commandBody; return ⟨t, b⟩ : T Command).res x) = .ok r v := e
  revert e'
  cases (do let b ← commandBody; return ⟨t, b⟩ : T Command).res x with
  | failure k => cases k <;> simp [fillTag]
  | _ => simp [fillTag]

end Imap.Timed
