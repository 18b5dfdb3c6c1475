import Verif.NumbersSpec
import Verif.DataRT
import Verif.Props.RoundTrip
/-!
Theorems about numbers: C31.
-/
set_option maxRecDepth 10000
namespace Imap
open Spec
variable [Quirks]

omit [Quirks] in
theorem digit_iff (b : UInt8) : Digit b ↔ isDigit b = true := by
  have : ∀ b : UInt8, (48 ≤ b.toNat ∧ b.toNat ≤ 57) ↔ isDigit b = true := forall_byte (by decide)
  exact this b

omit [Quirks] in
theorem value_append_one (l : Bytes) (d : UInt8) : Spec.value (l ++ [d]) = Spec.value l * 10 + (d.toNat - 48) := by
  induction l with
  | nil => simp [Spec.value]
  | cons a l ih =>
    simp only [List.cons_append, Spec.value, ih, List.length_append, List.length_cons, List.length_nil, Nat.zero_add, Nat.pow_succ,
      Nat.add_mul, Nat.mul_assoc, Nat.add_assoc]

omit [Quirks] in
/-- The loop of `str::parse` computes the value of the numeral. -/
theorem decVal_eq (l : Bytes) (h : ∀ b ∈ l, Digit b) : decVal l = Spec.value l := by
  induction l using List.reverseRecOn with
  | nil => rfl
  | append_singleton l b ih =>
    rw [decVal_append_one, value_append_one, ih (fun b hb => h b (by simp [hb]))]
    rw [digitVal]

omit [Quirks] in
theorem all_digit {ds : Bytes} (h : Numeral ds) : ds.all isDigit = true :=
  List.all_eq_true.2 fun b hb => (digit_iff b).1 (h.2 b hb)

omit [Quirks] in
theorem stops_of_next {rest : Bytes} (h : NextIsNoDigit rest) : Stops isDigit rest = true := by
  obtain ⟨b, r, rfl, hb⟩ := h
  simpa [Stops, digit_iff] using hb

omit [Quirks] in
/-- C31: a number that fits a `u32` is decoded by value, any other number is rejected. -/
theorem C31_number {ds rest : Bytes} (h : Numeral ds) (hr : NextIsNoDigit rest) :
    number (ds ++ rest) = if Spec.value ds < 2 ^ 32 then .ok rest (Spec.value ds) else .error := by
  simp only [number, mapRes, takeWhile1_append h.1 (all_digit h) (stops_of_next hr), decVal_eq ds h.2]
  by_cases hv : Spec.value ds < 4294967296 <;> simp [hv]

omit [Quirks] in
/-- C31: the same for a `u64`. -/
theorem C31_number64 {ds rest : Bytes} (h : Numeral ds) (hr : NextIsNoDigit rest) :
    number64 (ds ++ rest) = if Spec.value ds < 2 ^ 64 then .ok rest (Spec.value ds) else .error := by
  simp only [number64, mapRes, takeWhile1_append h.1 (all_digit h) (stops_of_next hr), decVal_eq ds h.2]
  by_cases hv : Spec.value ds < 18446744073709551616 <;> simp [hv]

omit [Quirks] in
/-- C31: the same for a `NonZeroU32`; zero is rejected, however many digits it has. -/
theorem C31_nzNumber {ds rest : Bytes} (h : Numeral ds) (hr : NextIsNoDigit rest) :
    nzNumber (ds ++ rest) = if 1 ≤ Spec.value ds ∧ Spec.value ds < 2 ^ 32 then .ok rest (Spec.value ds) else .error := by
  simp only [nzNumber, mapRes, C31_number h hr]
  by_cases hv : Spec.value ds < 4294967296
  · by_cases h0 : Spec.value ds = 0
    · simp [h0]
    · simp [hv, h0, Nat.one_le_iff_ne_zero]
  · simp [hv]

omit [Quirks] in
theorem takeWhile1_incomplete {f : UInt8 → Bool} {v : Bytes} (hv : v.all f = true) : takeWhile1 f v = .incomplete := by
  cases v with
  | nil => rfl
  | cons b v =>
    simp only [List.all_cons, Bool.and_eq_true] at hv
    simp only [takeWhile1, hv.1, if_true]
    have : ∀ l : Bytes, l.all f = true → takeWhile f l = .incomplete := by
      intro l hl
      induction l with
      | nil => rfl
      | cons a l ih =>
        simp only [List.all_cons, Bool.and_eq_true] at hl
        simp [takeWhile, hl.1, ih hl.2]
    exact this (b :: v) (by simp [hv])

omit [Quirks] in
/-- C31: as long as only digits have arrived, more bytes are wanted: a number is never cut short. -/
theorem C31_incomplete {ds : Bytes} (h : ∀ b ∈ ds, Digit b) :
    number ds = .incomplete ∧ number64 ds = .incomplete ∧ nzNumber ds = .incomplete := by
  have : takeWhile1 isDigit ds = .incomplete :=
    takeWhile1_incomplete (List.all_eq_true.2 fun b hb => (digit_iff b).1 (h b hb))
  simp [number, number64, nzNumber, mapRes, this]

omit [Quirks] in
/-- C31: what does not start with a digit is no number. -/
theorem C31_reject {b : UInt8} {rest : Bytes} (h : ¬ Digit b) :
    number (b :: rest) = .error ∧ number64 (b :: rest) = .error ∧ nzNumber (b :: rest) = .error := by
  have : isDigit b = false := by simpa [digit_iff] using h
  simp [number, number64, nzNumber, mapRes, takeWhile1, this]

omit [Quirks] in
/-- C31: conversely, what is decoded is a numeral and its value, and fits. -/
theorem C31_decoded {x rest : Bytes} {n : Nat} :
    (number x = .ok rest n ↔ ∃ ds, x = ds ++ rest ∧ Numeral ds ∧ NextIsNoDigit rest ∧ n = Spec.value ds ∧ n < 2 ^ 32) ∧
    (number64 x = .ok rest n ↔ ∃ ds, x = ds ++ rest ∧ Numeral ds ∧ NextIsNoDigit rest ∧ n = Spec.value ds ∧ n < 2 ^ 64) ∧
    (nzNumber x = .ok rest n ↔
      ∃ ds, x = ds ++ rest ∧ Numeral ds ∧ NextIsNoDigit rest ∧ n = Spec.value ds ∧ 1 ≤ n ∧ n < 2 ^ 32) := by
  have split : (∀ b ∈ x, Digit b) ∨ (∃ b r, x = b :: r ∧ ¬ Digit b) ∨ ∃ ds r, x = ds ++ r ∧ Numeral ds ∧ NextIsNoDigit r := by
    induction x with
    | nil => exact .inl (by simp)
    | cons a x ih =>
      by_cases ha : Digit a
      · rcases ih with h | ⟨b, r, rfl, hb⟩ | ⟨ds, r, rfl, h1, h2⟩
        · exact .inl (by simpa [ha] using h)
        · exact .inr (.inr ⟨[a], b :: r, rfl, by simpa [Numeral] using ha, b, r, rfl, hb⟩)
        · exact .inr (.inr ⟨a :: ds, r, rfl, ⟨by simp, by simpa [ha] using h1.2⟩, h2⟩)
      · exact .inr (.inl ⟨a, x, rfl, ha⟩)
  have uniq : ∀ {ds r : Bytes}, Numeral ds → NextIsNoDigit r → ∀ {ds' r'}, ds ++ r = ds' ++ r' → Numeral ds' → NextIsNoDigit r' →
      ds = ds' ∧ r = r' := by
    intro ds r h hr ds' r' e h' hr'
    have e1 := takeWhile1_append h.1 (all_digit h) (stops_of_next hr)
    have e2 := takeWhile1_append h'.1 (all_digit h') (stops_of_next hr')
    rw [e, e2] at e1
    simp at e1
    exact ⟨e1.2.symm, e1.1.symm⟩
  rcases split with h | ⟨b, r, rfl, hb⟩ | ⟨ds, r, rfl, h1, h2⟩
  · have no : ¬ ∃ ds, x = ds ++ rest ∧ Numeral ds ∧ NextIsNoDigit rest := by
      rintro ⟨ds, rfl, _, b, r, rfl, hb⟩
      exact hb (h b (by simp))
    have := C31_incomplete h
    simp only [this, reduceCtorEq, false_iff]
    refine ⟨?_, ?_, ?_⟩ <;>
    · rintro ⟨ds, h1, h2, h3, _⟩
      exact no ⟨ds, h1, h2, h3⟩
  · have := C31_reject (rest := r) hb
    have no : ¬ ∃ ds, b :: r = ds ++ rest ∧ Numeral ds ∧ NextIsNoDigit rest := by
      rintro ⟨ds, e, h, -⟩
      cases ds with
      | nil => exact h.1 rfl
      | cons a ds =>
        simp at e
        exact hb (e.1 ▸ h.2 a (by simp))
    simp only [this, reduceCtorEq, false_iff]
    refine ⟨?_, ?_, ?_⟩ <;>
    · rintro ⟨ds, h1, h2, h3, _⟩
      exact no ⟨ds, h1, h2, h3⟩
  · rw [C31_number h1 h2, C31_number64 h1 h2, C31_nzNumber h1 h2]
    refine ⟨?_, ?_, ?_⟩
    all_goals
      constructor
      · intro e
        split at e
        · simp at e
          obtain ⟨rfl, rfl⟩ := e
          refine ⟨ds, rfl, h1, h2, rfl, by omega⟩
        · simp at e
      · rintro ⟨ds', e, h1', h2', rfl, h3⟩
        obtain ⟨rfl, rfl⟩ := uniq h1 h2 e h1' h2'
        simpa using h3

omit [Quirks] in
/-- C31: a number is printed as a numeral with its value, without leading zeros. -/
theorem C31_print (n : Nat) :
    Numeral (showNat n) ∧ Spec.value (showNat n) = n ∧ ((showNat n).head? = some 48 → n = 0 ∧ showNat n = b!"0") := by
  have hd : ∀ b ∈ showNat n, Digit b := fun b hb => (digit_iff b).2 (List.all_eq_true.1 (showNat_digits n) b hb)
  refine ⟨⟨showNat_ne_nil n, hd⟩, by rw [← decVal_eq _ hd, decVal_showNat], ?_⟩
  induction n using Nat.strongRecOn with
  | ind n ih =>
    unfold showNat
    split
    · next h =>
      have : n = 0 ∨ n = 1 ∨ n = 2 ∨ n = 3 ∨ n = 4 ∨ n = 5 ∨ n = 6 ∨ n = 7 ∨ n = 8 ∨ n = 9 := by omega
      rcases this with rfl | rfl | rfl | rfl | rfl | rfl | rfl | rfl | rfl | rfl <;> simp
    · next h =>
      intro hh
      have hh : (showNat (n / 10)).head? = some 48 := by
        cases e : showNat (n / 10) with
        | nil => exact absurd e (showNat_ne_nil _)
        | cons a l => simpa [e] using hh
      have := ih (n / 10) (by omega) (fun b hb => (digit_iff b).2 (List.all_eq_true.1 (showNat_digits _) b hb)) hh
      omega

omit [Quirks] in
theorem numeral_head {ds x : Bytes} (h : Numeral ds) : ∃ b bs, ds ++ x = b :: bs ∧ isLetter b = false := by
  cases ds with
  | nil => exact absurd rfl h.1
  | cons a ds =>
    have : ∀ b : UInt8, isDigit b = true → isLetter b = false := forall_byte (by decide)
    exact ⟨a, ds ++ x, rfl, this a ((digit_iff a).1 (h.2 a (by simp)))⟩

theorem responseData_error {b : UInt8} {y r bs : Bytes} (hb : isLetter b = false) (hy : y ++ 13 :: 10 :: r = b :: bs)
    (h : responseDataInner (b :: bs) = .error) : response (b!"* " ++ y ++ b!"\r\n" ++ r) = .error := by
  have hx : b!"* " ++ y ++ b!"\r\n" ++ r = 42 :: 32 :: b :: bs := by simp [← hy]
  rw [hx]
  have e : responseData (42 :: 32 :: b :: bs) = .error := by
    simp [responseData, tag, h]
  have e1 : emptyContinueReq (42 :: 32 :: b :: bs) = .error := by
    simp [emptyContinueReq, tag]
  have e2 : continueReq (42 :: 32 :: b :: bs) = .error := by
    simp [continueReq, continueInner, mapRes, tag]
  have e3 : responseDone (42 :: 32 :: b :: bs) = .error := by
    have : isTagChar 42 = false := by decide
    simp [responseDone, responseTagged, tagImap, takeWhile1, this, alt_cons, orElse, responseFatal, respCondBye, tag,
      tagNC_nonletter hb]
  unfold response
  split <;> simp [alt_cons, orElse, e, e1, e2, e3]

/-- C31, for the response EXISTS: the number of messages is any `u32`; a larger one is rejected, not truncated. -/
theorem C31_exists {ds : Bytes} (h : Numeral ds) (rest : Bytes) :
    Codec.response.decode (b!"* " ++ (ds ++ b!" EXISTS") ++ b!"\r\n" ++ rest) =
      if Spec.value ds < 2 ^ 32 then .ok rest (.data (.exists_ (Spec.value ds)) : Response) else .failed := by
  have e := C31_number (rest := b!" EXISTS" ++ 13 :: 10 :: rest) h ⟨32, _, rfl, by simp [Digit]⟩
  have e' := C31_nzNumber (rest := b!" EXISTS" ++ 13 :: 10 :: rest) h ⟨32, _, rfl, by simp [Digit]⟩
  obtain ⟨b, bs, hx, hb⟩ := numeral_head (x := b!" EXISTS" ++ 13 :: 10 :: rest) h
  split
  · next hv =>
    have : ∀ r, responseDataInner ((ds ++ b!" EXISTS") ++ 13 :: 10 :: r) = .ok (13 :: 10 :: r) (.data (.exists_ (Spec.value ds))) := by
      intro r
      have e := C31_number (rest := b!" EXISTS" ++ 13 :: 10 :: r) h ⟨32, _, rfl, by simp [Digit]⟩
      obtain ⟨b, bs, hx, hb⟩ := numeral_head (x := b!" EXISTS" ++ 13 :: 10 :: r) h
      rw [if_pos hv] at e
      rw [List.append_assoc]
      rw [hx] at e ⊢
      rw [responseDataInner_digit hb]
      refine alt_hit (map_ok ?_)
      rw [mailboxData_digit hb]
      refine alt_hit ?_
      simp [e, tagNC]
    show outcomeResponse (response _) = _
    rw [rt_responseData this]
    rfl
  · next hv =>
    rw [if_neg hv] at e
    rw [if_neg (by omega)] at e'
    show outcomeResponse (response _) = _
    rw [responseData_error hb (by rw [← hx, List.append_assoc])]
    · rfl
    · rw [hx] at e e'
      rw [responseDataInner_digit hb]
      have h1 : mailboxData (b :: bs) = .error := by
        rw [mailboxData_digit hb]
        simp [alt_cons, orElse, e, quotarootResponse, quotaResponse, tagNC_nonletter hb]
      have h2 : messageData (b :: bs) = .error := by
        simp [gate, messageData, alt_cons, orElse, e', vanishedData, tagNC_nonletter hb]
      simp [gate, alt_cons, orElse, h1, h2, capabilityData, enableData, idResponse, tagNC_nonletter hb]

/-- C31, for the response EXPUNGE: the message number is any non-zero `u32`; zero or a larger one is rejected. -/
theorem C31_expunge {ds : Bytes} (h : Numeral ds) (rest : Bytes) :
    Codec.response.decode (b!"* " ++ (ds ++ b!" EXPUNGE") ++ b!"\r\n" ++ rest) =
      if 1 ≤ Spec.value ds ∧ Spec.value ds < 2 ^ 32 then .ok rest (.data (.expunge (Spec.value ds)) : Response) else .failed := by
  have key : ∀ r, responseDataInner ((ds ++ b!" EXPUNGE") ++ 13 :: 10 :: r) =
      if 1 ≤ Spec.value ds ∧ Spec.value ds < 2 ^ 32 then .ok (13 :: 10 :: r) (.data (.expunge (Spec.value ds))) else .error := by
    intro r
    have e := C31_number (rest := b!" EXPUNGE" ++ 13 :: 10 :: r) h ⟨32, _, rfl, by simp [Digit]⟩
    have e' := C31_nzNumber (rest := b!" EXPUNGE" ++ 13 :: 10 :: r) h ⟨32, _, rfl, by simp [Digit]⟩
    obtain ⟨b, bs, hx, hb⟩ := numeral_head (x := b!" EXPUNGE" ++ 13 :: 10 :: r) h
    rw [List.append_assoc]
    rw [hx] at e e' ⊢
    rw [responseDataInner_digit hb]
    have h1 : mailboxData (b :: bs) = .error := by
      rw [mailboxData_digit hb]
      have q1 : quotarootResponse (b :: bs) = .error := by simp [quotarootResponse, tagNC_nonletter hb]
      have q2 : quotaResponse (b :: bs) = .error := by simp [quotaResponse, tagNC_nonletter hb]
      split at e
      · simp [alt_cons, orElse, e, tagNC, lower, q1, q2]
      · simp [alt_cons, orElse, e, q1, q2]
    split
    · next hv =>
      rw [if_pos hv] at e'
      refine Eq.trans (alt_skip (by simp [h1])) (alt_hit (map_ok ?_))
      rw [messageData]
      refine alt_hit ?_
      simp [e', sp_cons, messageDataTail, alt_cons, orElse, value, tagNC]
    · next hv =>
      rw [if_neg hv] at e'
      have h2 : messageData (b :: bs) = .error := by
        simp [gate, messageData, alt_cons, orElse, e', vanishedData, tagNC_nonletter hb]
      simp [gate, alt_cons, orElse, h1, h2, capabilityData, enableData, idResponse, tagNC_nonletter hb]
  show outcomeResponse (response _) = _
  split
  · next hv =>
    rw [rt_responseData (v := .data (.expunge (Spec.value ds)))]
    · rfl
    · intro r
      rw [key, if_pos hv]
  · next hv =>
    obtain ⟨b, bs, hx, hb⟩ := numeral_head (x := b!" EXPUNGE" ++ 13 :: 10 :: rest) h
    rw [responseData_error hb (by rw [← hx, List.append_assoc])]
    · rfl
    · rw [← hx, ← List.append_assoc, key, if_neg hv]

end Imap

namespace Imap.NumbersExamples
open Spec
local instance : Quirks := Quirks.default

/-- The numeral `0042` meets the hypotheses; leading zeros do not matter. -/
example : Numeral b!"0042" ∧ NextIsNoDigit b!" EXISTS" ∧ Spec.value b!"0042" = 42 :=
  ⟨⟨by decide, by decide⟩, ⟨32, _, rfl, by decide⟩, rfl⟩

/-- The largest `u32`, and one more. -/
example : Spec.value b!"4294967295" < 2 ^ 32 ∧ ¬ Spec.value b!"4294967296" < 2 ^ 32 := by decide

example : Codec.response.decode b!"* 0042 EXISTS\r\n+ x" = .ok b!"+ x" (.data (.exists_ 42) : Response) :=
  (C31_exists (ds := b!"0042") ⟨by decide, by decide⟩ b!"+ x").trans rfl

example : Codec.response.decode b!"* 4294967296 EXISTS\r\n" = .failed :=
  (C31_exists (ds := b!"4294967296") ⟨by decide, by decide⟩ []).trans (if_neg (by decide))

example : Codec.response.decode b!"* 0 EXPUNGE\r\n" = .failed :=
  (C31_expunge (ds := b!"0") ⟨by decide, by decide⟩ []).trans rfl

example : showNat 4294967295 = b!"4294967295" := by with_unfolding_all rfl

end Imap.NumbersExamples
