import Verif.FragSpec
import Mathlib.Tactic.SplitIfs
namespace Imap.Frag

def annOf : Latest → Option Ann
  | .closing a => some a
  | .cr a => a
  | _ => none

def endOf : Latest → Ending
  | .cr _ => .crlf
  | _ => .lf

theorem lineStep_snd (lt : Latest) (b : UInt8) :
    (lineStep lt b).2 = if b = 10 then some (annOf lt, endOf lt) else none := by
  unfold lineStep annOf endOf
  grind

def scan (lt : Latest) (bs : Bytes) : Latest := bs.foldl (fun l b => (lineStep l b).1) lt

theorem parse_noLF (p : LineParser) (bs : Bytes) (h : (10 : UInt8) ∉ bs) :
    p.parse bs = (⟨p.start, p.stop + bs.length, scan p.latest bs⟩, bs.length, none) := by
  induction bs generalizing p with
  | nil => simp [LineParser.parse, scan]
  | cons b bs ih =>
    simp only [List.mem_cons, not_or] at h
    have hb : b ≠ 10 := fun hh => h.1 hh.symm
    simp [LineParser.parse, lineStep_snd, hb, ih _ h.2, scan]; omega

theorem parse_LF (p : LineParser) (pre rest : Bytes) (h : (10 : UInt8) ∉ pre) :
    p.parse (pre ++ 10 :: rest) =
      (⟨p.start, p.stop + pre.length + 1, .other⟩, pre.length + 1,
        some (.line p.start (p.stop + pre.length + 1) (annOf (scan p.latest pre)) (endOf (scan p.latest pre)))) := by
  induction pre generalizing p with
  | nil =>
    have : (lineStep p.latest 10).1 = .other := by unfold lineStep; grind [isDigit]
    simp [LineParser.parse, lineStep_snd, scan, this]
  | cons b bs ih =>
    simp only [List.mem_cons, not_or] at h
    have hb : b ≠ 10 := fun hh => h.1 hh.symm
    simp [LineParser.parse, lineStep_snd, hb, ih _ h.2, scan]
    omega

theorem decVal_append (a b : Bytes) : decVal (a ++ b) = b.foldl (fun n d => n * 10 + digitVal d) (decVal a) := by
  simp [decVal]

theorem decVal_snoc (a : Bytes) (d : UInt8) : decVal (a ++ [d]) = decVal a * 10 + digitVal d := by
  simp [decVal]

theorem foldl_dec_ge (ds : Bytes) (n : Nat) : n ≤ ds.foldl (fun n d => n * 10 + digitVal d) n := by
  induction ds generalizing n with
  | nil => simp
  | cons d ds ih => simp only [List.foldl_cons]; have := ih (n * 10 + digitVal d); omega

theorem digitVal_lt (d : UInt8) (h : isDigit d) : digitVal d < 10 := by
  unfold isDigit digitVal at *
  simp at h
  have : d.toNat ≤ 57 := by simpa using UInt8.le_iff_toNat_le.mp h.2
  omega

/-- What is known of the bytes before, for each parser state. -/
def Sem (pre : Bytes) : Latest → Prop
  | .other => True
  | .opening => ∃ p, pre = p ++ b!"{"
  | .digit n => ∃ p ds, pre = p ++ b!"{" ++ ds ∧ ds ≠ [] ∧ (∀ d ∈ ds, isDigit d) ∧ decVal ds = n ∧ n < 2^32
  | .plus n => ∃ p ds, pre = p ++ b!"{" ++ ds ++ b!"+" ∧ ds ≠ [] ∧ (∀ d ∈ ds, isDigit d) ∧ decVal ds = n ∧ n < 2^32
  | .closing a => ∃ p ds, pre = p ++ b!"{" ++ ds ++ modeBytes a.mode ++ b!"}" ∧ ds ≠ [] ∧ (∀ d ∈ ds, isDigit d) ∧
      decVal ds = a.length ∧ a.length < 2^32
  | .cr none => True
  | .cr (some a) => ∃ p ds, pre = p ++ b!"{" ++ ds ++ modeBytes a.mode ++ b!"}" ++ b!"\r" ∧ ds ≠ [] ∧
      (∀ d ∈ ds, isDigit d) ∧ decVal ds = a.length ∧ a.length < 2^32

theorem sem_step (pre : Bytes) (lt : Latest) (b : UInt8) (h : Sem pre lt) (hb : b ≠ 10) :
    Sem (pre ++ [b]) (lineStep lt b).1 := by
  unfold lineStep
  split
  · split_ifs <;> simp_all [Sem]
  · rename_i x
    split_ifs <;> simp_all [Sem]
    obtain ⟨p, rfl⟩ := h
    rename_i hd
    refine ⟨p, [b], by simp, by simp, by simpa using hd, by simp [decVal], ?_⟩
    have := digitVal_lt b hd; omega
  · rename_i n
    obtain ⟨p, ds, rfl, h1, h2, h3, h4⟩ := h
    split_ifs with c1 c2 c3
    · simp [Sem]
    · subst c2; exact ⟨_, rfl⟩
    · subst c3; exact ⟨p, ds, by simp [modeBytes], h1, h2, h3, h4⟩
    · simp [Sem]
  · rename_i n
    obtain ⟨p, ds, rfl, h1, h2, h3, h4⟩ := h
    split_ifs with c1 c3 c4 c5 c6
    · simp [Sem]
    · subst c3; exact ⟨_, rfl⟩
    · unfold checkedPush
      split_ifs with c7 c8
      · refine ⟨p, ds ++ [b], by simp, by simp, ?_, ?_, c8⟩
        · intro d hd
          simp at hd
          rcases hd with hd | rfl
          · exact h2 _ hd
          · exact c4
        · rw [decVal_snoc, h3]
      · simp [Sem]
      · simp [Sem]
    · subst c5
      exact ⟨p, ds, by simp, h1, h2, h3, h4⟩
    · subst c6
      exact ⟨p, ds, by simp [modeBytes], h1, h2, h3, h4⟩
    · simp [Sem]
  · obtain ⟨p, ds, rfl, h1, h2, h3, h4⟩ := h
    split_ifs with c1 c3
    · subst c1
      exact ⟨p, ds, by simp, h1, h2, h3, h4⟩
    · subst c3; exact ⟨_, rfl⟩
    · simp [Sem]
  · split_ifs with c1 c3
    · simp [Sem]
    · subst c3; exact ⟨_, rfl⟩
    · simp [Sem]

theorem scan_append (lt : Latest) (a b : Bytes) : scan lt (a ++ b) = scan (scan lt a) b := by
  simp [scan]

theorem step_lf (lt : Latest) : (lineStep lt 10).1 = .other := by
  cases lt <;> rfl

theorem sem_scan (pre : Bytes) : Sem pre (scan .other pre) := by
  induction hl : pre.length generalizing pre with
  | zero => simp_all [Sem, scan]
  | succ n ih =>
    obtain ⟨init, b, rfl⟩ : ∃ init b, pre = init ++ [b] := by
      rcases List.eq_nil_or_concat pre with rfl | ⟨i, b, rfl⟩
      · simp at hl
      · exact ⟨i, b, by simp⟩
    simp at hl
    rw [scan_append]
    by_cases hb : b = 10
    · subst hb
      rw [show scan (scan .other init) [10] = (lineStep (scan .other init) 10).1 from rfl, step_lf]
      trivial
    · exact sem_step _ _ _ (ih init hl) hb

theorem step_brace (lt : Latest) : (lineStep lt 123).1 = .opening := by
  unfold lineStep; grind [isDigit]

theorem scan_digits (n : Nat) (ds : Bytes) (h : ∀ d ∈ ds, isDigit d)
    (hv : ds.foldl (fun n d => n * 10 + digitVal d) n < 2^32) :
    scan (.digit n) ds = .digit (ds.foldl (fun n d => n * 10 + digitVal d) n) := by
  induction ds generalizing n with
  | nil => simp [scan]
  | cons d ds ih =>
    simp only [List.foldl_cons] at hv
    have hd : isDigit d := h d (by simp)
    have hge := foldl_dec_ge ds (n * 10 + digitVal d)
    have hst : (lineStep (.digit n) d).1 = .digit (n * 10 + digitVal d) := by
      have : d ≠ 13 ∧ d ≠ 10 ∧ d ≠ 123 := by unfold isDigit at hd; grind
      unfold lineStep
      simp [this, hd, checkedPush]
      have e1 : n * 10 < 4294967296 := by omega
      have e2 : n * 10 + digitVal d < 4294967296 := by omega
      simp [e1, e2]
    have := ih (n * 10 + digitVal d) (fun d hd => h d (by simp [hd])) hv
    simp only [scan, List.foldl_cons, hst] at this ⊢
    simpa using this

theorem scan_announce (lt : Latest) (pre ds : Bytes) (m : Mode) (hne : ds ≠ []) (h : ∀ d ∈ ds, isDigit d)
    (hv : decVal ds < 2^32) :
    scan lt (pre ++ b!"{" ++ ds ++ modeBytes m ++ b!"}") = .closing ⟨m, decVal ds⟩ := by
  rw [scan_append, scan_append, scan_append, scan_append]
  have e1 : scan (scan lt pre) b!"{" = .opening := by simp [scan, step_brace]
  rw [e1]
  have e2 : scan .opening ds = .digit (decVal ds) := by
    cases ds with
    | nil => exact absurd rfl hne
    | cons d ds =>
      have hd : isDigit d := h d (by simp)
      have hst : (lineStep .opening d).1 = .digit (digitVal d) := by
        have : d ≠ 13 ∧ d ≠ 10 ∧ d ≠ 123 := by unfold isDigit at hd; grind
        unfold lineStep
        simp [this, hd]
      have := scan_digits (digitVal d) ds (fun d hd => h d (by simp [hd])) (by simpa [decVal] using hv)
      simp only [scan, List.foldl_cons, hst] at this ⊢
      simpa [decVal] using this
  rw [e2]
  cases m <;> simp [modeBytes, scan, lineStep, isDigit]

theorem announces_body (body : Bytes) (a : Ann) :
    Announces (body ++ b!"\n") a ↔ annOf (scan .other body) = some a := by
  constructor
  · rintro ⟨pre, ds, ending, h, hne, hd, hv, hlt⟩
    cases ending with
    | lf =>
      simp only [endingBytes] at h
      have h' := List.append_inj_left' h (by simp)
      rw [h', scan_announce _ _ _ _ hne hd (by omega), hv]
      simp [annOf]
    | crlf =>
      have h' : body = pre ++ b!"{" ++ ds ++ modeBytes a.mode ++ b!"}" ++ b!"\r" := by
        apply List.append_inj_left' (t₁ := b!"\n") (t₂ := b!"\n") _ rfl
        rw [h]; simp [endingBytes]
      rw [h', scan_append, scan_announce _ _ _ _ hne hd (by omega), hv]
      simp [annOf, scan, lineStep]
  · intro h
    have hs := sem_scan body
    revert h hs
    generalize scan .other body = lt
    intro h hs
    cases lt <;> simp [annOf] at h
    · subst h
      obtain ⟨p, ds, rfl, h1, h2, h3, h4⟩ := hs
      exact ⟨p, ds, .lf, by simp [endingBytes], h1, h2, h3, h4⟩
    · subst h
      obtain ⟨p, ds, rfl, h1, h2, h3, h4⟩ := hs
      exact ⟨p, ds, .crlf, by simp [endingBytes], h1, h2, h3, h4⟩

theorem step_cr (lt : Latest) (b : UInt8) : (∃ a, (lineStep lt b).1 = .cr a) ↔ b = 13 := by
  constructor
  · rintro ⟨a, h⟩
    unfold lineStep at h
    grind [isDigit]
  · rintro rfl
    cases lt <;> exact ⟨_, rfl⟩

theorem endsWith_body (body : Bytes) : EndsWith (body ++ b!"\n") (endOf (scan .other body)) := by
  have key : endOf (scan .other body) = .crlf ↔ ∃ pre, body ++ b!"\n" = pre ++ b!"\r\n" := by
    rcases List.eq_nil_or_concat body with rfl | ⟨init, b, rfl⟩
    · simp [scan, endOf]
      intro pre h
      have := congrArg List.length h
      simp at this
    · rw [List.concat_eq_append, scan_append]
      have h1 := step_cr (scan .other init) b
      constructor
      · intro h
        have : ∃ a, (lineStep (scan .other init) b).1 = .cr a := by
          revert h
          simp only [scan, List.foldl_cons, List.foldl_nil]
          generalize (lineStep _ b).1 = x
          cases x <;> simp [endOf]
        rw [h1] at this
        subst this
        exact ⟨init, by simp⟩
      · rintro ⟨pre, h⟩
        have h' : init ++ [b] = pre ++ b!"\r" := by
          apply List.append_inj_left' (t₁ := b!"\n") (t₂ := b!"\n") _ rfl
          rw [h]; simp
        have : b = 13 := by
          have := List.append_inj_right' h' rfl
          simpa using this
        obtain ⟨a, ha⟩ := h1.mpr this
        simp only [scan, List.foldl_cons, List.foldl_nil] at ha ⊢
        rw [ha]; rfl
  cases h : endOf (scan .other body) with
  | lf => simp only [EndsWith]; rw [← key, h]; simp
  | crlf => simp only [EndsWith]; exact key.mp h

end Imap.Frag
