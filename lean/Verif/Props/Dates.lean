import Verif.DatesSpec
import Verif.WellFormedLemmas
import Verif.Props.Numbers
/-!
Theorems about dates: C32.
-/
set_option maxRecDepth 10000
namespace Imap
open Spec
variable [Quirks]

/-- `p` reads exactly the words related to a value by `S`, whatever follows. -/
structure Reads {α : Type} (p : P α) (S : Bytes → α → Prop) : Prop where
  reads : ∀ {w v}, S w v → ∀ r, p (w ++ r) = .ok r v
  only : ∀ {x r v}, p x = .ok r v → ∃ w, x = w ++ r ∧ S w v

omit [Quirks] in
theorem reads_takeExactly (f : UInt8 → Bool) (n : Nat) : Reads (takeExactly f n) fun w v => v = w ∧ w.length = n ∧ w.all f = true := by
  constructor
  · rintro w v ⟨e, rfl, h⟩ r
    subst e
    induction v with
    | nil => rfl
    | cons a v ih =>
      simp only [List.all_cons, Bool.and_eq_true] at h
      simp [takeExactly, h.1, ih h.2]
  · intro x r v h
    induction n generalizing x v with
    | zero => simp [takeExactly] at h; exact ⟨[], by simp [h.1], by simp [h.2], rfl, rfl⟩
    | succ n ih =>
      cases x with
      | nil => simp [takeExactly] at h
      | cons a x =>
        simp only [takeExactly] at h
        split at h
        · next ha =>
          obtain ⟨i, u, h1, h2⟩ := Res.andThen_eq_ok.1 h
          simp at h2
          obtain ⟨rfl, rfl⟩ := h2
          obtain ⟨w, rfl, rfl, h3, h4⟩ := ih h1
          exact ⟨a :: u, rfl, rfl, by simp [h3], by simp [ha, h4]⟩
        · simp at h

omit [Quirks] in
theorem digits_iff {k n : Nat} {w : Bytes} (hk : k ≠ 0) : Digits k w n ↔ w.length = k ∧ w.all isDigit = true ∧ decVal w = n := by
  constructor
  · rintro ⟨h1, h2, h3⟩
    exact ⟨h2, all_digit h1, by rw [decVal_eq _ h1.2, h3]⟩
  · rintro ⟨h1, h2, h3⟩
    have hd : ∀ b ∈ w, Digit b := fun b hb => (digit_iff b).2 (List.all_eq_true.1 h2 b hb)
    refine ⟨⟨?_, hd⟩, h1, by rw [← decVal_eq _ hd, h3]⟩
    rintro rfl
    exact hk h1.symm

omit [Quirks] in
theorem reads_exactly {k : Nat} (hk : k ≠ 0) : Reads (decVal <$> takeExactly isDigit k) (Digits k) := by
  constructor
  · intro w n h r
    obtain ⟨h1, h2, h3⟩ := (digits_iff hk).1 h
    rw [map_ok ((reads_takeExactly isDigit k).reads ⟨rfl, h1, h2⟩ r), h3]
  · intro x r v h
    simp only [P.map_apply] at h
    obtain ⟨i, u, h1, h2⟩ := Res.andThen_eq_ok.1 h
    simp at h2
    obtain ⟨w, rfl, rfl, h3, h4⟩ := (reads_takeExactly isDigit k).only h1
    exact ⟨u, by rw [h2.1], (digits_iff hk).2 ⟨h3, h4, h2.2⟩⟩

omit [Quirks] in
theorem tagNC_ci {t w : Bytes} (h : lowerAll w = lowerAll t) (r : Bytes) : tagNC t (w ++ r) = .ok r () := by
  induction t generalizing w with
  | nil => cases w with
    | nil => simp [tagNC]
    | cons b w => simp [lowerAll] at h
  | cons a t ih => cases w with
    | nil => simp [lowerAll] at h
    | cons b w =>
      simp only [lowerAll, List.map_cons, List.cons.injEq] at h
      simp only [List.cons_append, tagNC, h.1, if_true]
      exact ih h.2

omit [Quirks] in
theorem exists_of_tagNC {t x r : Bytes} {u : Unit} (h : tagNC t x = .ok r u) : ∃ w, x = w ++ r ∧ lowerAll w = lowerAll t := by
  induction t generalizing x with
  | nil => simp [tagNC] at h; exact ⟨[], by simp [h], rfl⟩
  | cons a t ih =>
    cases x with
    | nil => simp [tagNC] at h
    | cons b x =>
      simp only [tagNC] at h
      split at h
      · next hab =>
        obtain ⟨w, rfl, hw⟩ := ih h
        exact ⟨b :: w, rfl, by simp only [lowerAll, List.map_cons] at hw ⊢; rw [hw, hab]⟩
      · simp at h

omit [Quirks] in
/-- A keyword is only looked at up to letter case. -/
theorem tagNC_congr {t w w' r : Bytes} (h : lowerAll w = lowerAll w') (hl : t.length ≤ w.length) :
    (∃ k, tagNC t (w ++ r) = .ok (w.drop k ++ r) () ∧ tagNC t (w' ++ r) = .ok (w'.drop k ++ r) ()) ∨
    (tagNC t (w ++ r) = .error ∧ tagNC t (w' ++ r) = .error) := by
  induction t generalizing w w' with
  | nil => exact .inl ⟨0, by simp [tagNC], by simp [tagNC]⟩
  | cons a t ih =>
    cases w with
    | nil => simp at hl
    | cons b w =>
      cases w' with
      | nil => simp [lowerAll] at h
      | cons b' w' =>
        simp only [lowerAll, List.map_cons, List.cons.injEq] at h
        simp only [List.cons_append, tagNC, h.1]
        by_cases hb : lower a = lower b'
        · simp only [hb, if_true]
          rcases ih h.2 (by simpa using hl) with ⟨k, h1, h2⟩ | h
          · exact .inl ⟨k + 1, by simpa using h1, by simpa using h2⟩
          · exact .inr h
        · simp [hb]

omit [Quirks] in
theorem reads_value {α : Type} {t : Bytes} {v : α} : Reads (value v (tagNC t)) fun w v' => v' = v ∧ lowerAll w = lowerAll t := by
  constructor
  · rintro w _ ⟨rfl, h⟩ r
    simp [value, tagNC_ci h]
  · intro x r v' h
    simp only [value] at h
    obtain ⟨i, u, h1, h2⟩ := Res.andThen_eq_ok.1 h
    simp at h2
    obtain ⟨rfl, rfl⟩ := h2
    obtain ⟨w, rfl, hw⟩ := exists_of_tagNC h1
    exact ⟨w, rfl, rfl, hw⟩

omit [Quirks] in
/-- A success of `alt` is a success of one of the alternatives. -/
theorem exists_of_alt {α : Type} {ps : List (P α)} {x r : Bytes} {v : α} (h : alt ps x = .ok r v) : ∃ p ∈ ps, p x = .ok r v := by
  induction ps with
  | nil => simp [alt] at h
  | cons p ps ih =>
    simp only [alt_cons, orElse] at h
    split at h
    · obtain ⟨q, hq, h⟩ := ih h
      exact ⟨q, by simp [hq], h⟩
    · exact ⟨p, by simp, h⟩

omit [Quirks] in
theorem dateMonth_ok {x r : Bytes} {m : Nat} (h : dateMonth x = .ok r m) : ∃ w, x = w ++ r ∧ Month w m := by
  unfold dateMonth at h
  obtain ⟨p, hp, h⟩ := exists_of_alt h
  simp only [List.mem_cons, List.not_mem_nil, or_false] at hp
  rcases hp with rfl | rfl | rfl | rfl | rfl | rfl | rfl | rfl | rfl | rfl | rfl | rfl <;>
  · obtain ⟨w, rfl, rfl, hw⟩ := reads_value.only h
    exact ⟨w, rfl, by decide, by rw [hw]; rfl⟩

omit [Quirks] in
theorem dateMonth_ci {w : Bytes} {m : Nat} (h : Month w m) (r : Bytes) : dateMonth (w ++ r) = .ok r m := by
  obtain ⟨h1, h2⟩ := h
  have hm : m - 1 < months.length := by
    by_contra hc
    rw [List.getElem?_eq_none (by omega)] at h2
    simp at h2
  have : m = 1 ∨ m = 2 ∨ m = 3 ∨ m = 4 ∨ m = 5 ∨ m = 6 ∨ m = 7 ∨ m = 8 ∨ m = 9 ∨ m = 10 ∨ m = 11 ∨ m = 12 := by
    simp [months] at hm; omega
  have h3 : ∃ a b c : UInt8, w = [a, b, c] := by
    have hl : (lowerAll w).length = 3 := by
      rcases this with rfl | rfl | rfl | rfl | rfl | rfl | rfl | rfl | rfl | rfl | rfl | rfl <;>
      · simp [months] at h2
        rw [← h2]
        rfl
    match w, hl with
    | [a, b, c], _ => exact ⟨a, b, c, rfl⟩
  obtain ⟨a, b, c, rfl⟩ := h3
  rcases this with rfl | rfl | rfl | rfl | rfl | rfl | rfl | rfl | rfl | rfl | rfl | rfl <;>
  · simp [months, lowerAll] at h2
    obtain ⟨h2, h3, h4⟩ := h2
    simp [dateMonth, alt_cons, orElse, value, tagNC, ← h2, ← h3, ← h4]
    try simp [lower]

omit [Quirks] in
theorem reads_month : Reads dateMonth Month := ⟨fun h r => dateMonth_ci h r, dateMonth_ok⟩

omit [Quirks] in
theorem reads_digit2 : Reads digit2 (Digits 2) := reads_exactly (by decide)

omit [Quirks] in
theorem reads_digit4 : Reads digit4 (Digits 4) := reads_exactly (by decide)

omit [Quirks] in
/-- A day of one or two digits, when no digit follows. -/
theorem digit12_ok {w : Bytes} {n : Nat} (h : Digits 1 w n ∨ Digits 2 w n) {b : UInt8} (hb : isDigit b = false) (r : Bytes) :
    digit12 (w ++ b :: r) = .ok (b :: r) n := by
  rcases h with h | h
  · obtain ⟨h1, h2, h3⟩ := (digits_iff (by decide)).1 h
    match w, h1 with
    | [a], _ =>
      simp only [List.all_cons, List.all_nil, Bool.and_true] at h2
      simp [digit12, take1or2, h2, hb, h3]
  · obtain ⟨h1, h2, h3⟩ := (digits_iff (by decide)).1 h
    match w, h1 with
    | [a, c], _ =>
      simp only [List.all_cons, List.all_nil, Bool.and_true, Bool.and_eq_true] at h2
      simp [digit12, take1or2, h2, h3]

omit [Quirks] in
theorem digit12_only {x r : Bytes} {n : Nat} (h : digit12 x = .ok r n) : ∃ w, x = w ++ r ∧ (Digits 1 w n ∨ Digits 2 w n) := by
  unfold digit12 at h
  simp only [P.map_apply] at h
  obtain ⟨i, u, h1, h2⟩ := Res.andThen_eq_ok.1 h
  simp at h2
  obtain ⟨rfl, rfl⟩ := h2
  match x, h1 with
  | [], h1 => simp [take1or2] at h1
  | [b], h1 => simp only [take1or2] at h1; split at h1 <;> simp at h1
  | b :: c :: x, h1 =>
    simp only [take1or2] at h1
    split at h1
    · next hb =>
      split at h1
      · next hc =>
        simp at h1
        obtain ⟨rfl, rfl⟩ := h1
        exact ⟨[b, c], rfl, .inr ((digits_iff (by decide)).2 ⟨rfl, by simp [hb, hc], rfl⟩)⟩
      · simp at h1
        obtain ⟨rfl, rfl⟩ := h1
        exact ⟨[b], rfl, .inl ((digits_iff (by decide)).2 ⟨rfl, by simp [hb], rfl⟩)⟩
    · simp at h1

omit [Quirks] in
theorem year_le {w : Bytes} {n : Nat} (h : Digits 4 w n) : n < 10000 := by
  obtain ⟨h1, h2, rfl⟩ := (digits_iff (by decide)).1 h
  have := decVal_lt h2
  rwa [h1] at this

omit [Quirks] in
theorem fromYmdOpt_eq (d : NaiveDate) (h : d.year < 10000) [Decidable (NaiveDate.Inv d)] :
    fromYmdOpt d.year d.month d.day = if NaiveDate.Inv d then some d else none := by
  split
  · next hi => exact (fromYmdOpt_eq_some h).2 ⟨rfl, (NaiveDate.inv_iff d).2 hi⟩
  · next hi =>
    cases e : fromYmdOpt d.year d.month d.day with
    | none => rfl
    | some d' =>
      obtain ⟨rfl, hv⟩ := (fromYmdOpt_eq_some h).1 e
      exact absurd ((NaiveDate.inv_iff _).1 hv) hi

omit [Quirks] in
theorem dateText_ok {w : Bytes} {d : NaiveDate} (h : DateText w d) (r : Bytes) :
    dateText (w ++ r) = .ok r (fromYmdOpt d.year d.month d.day) := by
  obtain ⟨wd, wm, wy, rfl, h1, h2, h3⟩ := h
  simp [dateText, digit12_ok h1 (show isDigit 45 = false by decide), tag, dateMonth_ci h2, reads_digit4.reads h3]

omit [Quirks] in
theorem dateText_only {x r : Bytes} {o : Option NaiveDate} (h : dateText x = .ok r o) :
    ∃ w d, x = w ++ r ∧ DateText w d ∧ o = fromYmdOpt d.year d.month d.day := by
  unfold dateText at h
  simp only [P.bind_apply] at h
  obtain ⟨i1, v1, e1, h⟩ := Res.andThen_eq_ok.1 h
  obtain ⟨i2, v2, e2, h⟩ := Res.andThen_eq_ok.1 h
  obtain ⟨i3, v3, e3, h⟩ := Res.andThen_eq_ok.1 h
  obtain ⟨i4, v4, e4, h⟩ := Res.andThen_eq_ok.1 h
  obtain ⟨i5, v5, e5, h⟩ := Res.andThen_eq_ok.1 h
  simp at h
  obtain ⟨rfl, rfl⟩ := h
  obtain ⟨w1, rfl, h1⟩ := digit12_only e1
  obtain rfl := exists_of_tag e2
  obtain ⟨w3, rfl, h3⟩ := reads_month.only e3
  obtain rfl := exists_of_tag e4
  obtain ⟨w5, rfl, h5⟩ := reads_digit4.only e5
  exact ⟨w1 ++ b!"-" ++ w3 ++ b!"-" ++ w5, ⟨v5, v3, v1⟩, by simp, ⟨w1, w3, w5, rfl, h1, h3, h5⟩, rfl⟩

omit [Quirks] in
theorem dateText_quote (x : Bytes) : dateText (34 :: x) = .error := by cases x <;> rfl

omit [Quirks] in
theorem date_ok {w : Bytes} {d : NaiveDate} (h : Date w d) (r : Bytes) : date (w ++ r) = .ok r (fromYmdOpt d.year d.month d.day) := by
  unfold date
  rcases h with h | ⟨u, rfl, h⟩
  · exact alt_hit (dateText_ok h r)
  · have := dateText_ok h (34 :: r)
    refine Eq.trans (alt_skip (dateText_quote _)) (alt_hit ?_)
    simp [dquote, char, this]

omit [Quirks] in
theorem date_year {w : Bytes} {d : NaiveDate} (h : Date w d) : d.year < 10000 := by
  rcases h with ⟨_, _, _, _, _, _, h⟩ | ⟨_, _, _, _, _, _, _, _, h⟩ <;> exact year_le h

omit [Quirks] in
/-- C32: a date is decoded if and only if it is written as RFC 3501 says and exists in the calendar; the result is that date. -/
theorem C32_date (x r : Bytes) (d : NaiveDate) :
    dateSome x = .ok r d ↔ ∃ w, x = w ++ r ∧ Date w d ∧ NaiveDate.Inv d := by
  constructor
  · intro h
    obtain ⟨o, h, rfl⟩ := exists_of_mapRes h
    have key : ∀ {w : Bytes} {d' : NaiveDate}, DateText w d' → some d = fromYmdOpt d'.year d'.month d'.day → d' = d ∧ NaiveDate.Inv d := by
      intro w d' h e
      obtain ⟨rfl, hv⟩ := (fromYmdOpt_eq_some (year_le h.choose_spec.choose_spec.choose_spec.2.2.2)).1 e.symm
      exact ⟨rfl, (NaiveDate.inv_iff _).1 hv⟩
    unfold date at h
    obtain ⟨p, hp, h⟩ := exists_of_alt h
    simp only [List.mem_cons, List.not_mem_nil, or_false] at hp
    rcases hp with rfl | rfl
    · obtain ⟨w, d', rfl, h1, h2⟩ := dateText_only h
      obtain ⟨rfl, hv⟩ := key h1 h2
      exact ⟨w, rfl, .inl h1, hv⟩
    · simp only [P.bind_apply] at h
      obtain ⟨i1, v1, e1, h⟩ := Res.andThen_eq_ok.1 h
      obtain ⟨i2, v2, e2, h⟩ := Res.andThen_eq_ok.1 h
      obtain ⟨i3, v3, e3, h⟩ := Res.andThen_eq_ok.1 h
      simp at h
      obtain ⟨rfl, rfl⟩ := h
      obtain ⟨w, d', rfl, h1, h2⟩ := dateText_only e2
      obtain ⟨rfl, hv⟩ := key h1 h2
      have e1 := exists_of_char e1
      have e3 := exists_of_char e3
      subst e1 e3
      exact ⟨b!"\"" ++ w ++ b!"\"", by simp, .inr ⟨w, rfl, h1⟩, hv⟩
  · rintro ⟨w, rfl, h, hi⟩
    exact mapRes_ok (date_ok h r) ((fromYmdOpt_eq_some (date_year h)).2 ⟨rfl, (NaiveDate.inv_iff _).2 hi⟩)

omit [Quirks] in
/-- C32: a date that is written correctly but does not exist is rejected. -/
theorem C32_date_nonexistent {w : Bytes} {d : NaiveDate} (h : Date w d) (hi : ¬ NaiveDate.Inv d) (r : Bytes) :
    dateSome (w ++ r) = .error := by
  simp only [dateSome, mapRes, date_ok h r]
  cases e : fromYmdOpt d.year d.month d.day with
  | none => rfl
  | some d' =>
    obtain ⟨rfl, hv⟩ := (fromYmdOpt_eq_some (date_year h)).1 e
    exact absurd ((NaiveDate.inv_iff _).1 hv) hi

omit [Quirks] in
/-- C32: the encoded form of a date is decoded to that date. -/
theorem C32_date_roundtrip {d : NaiveDate} (h : NaiveDate.Inv d) (r : Bytes) : dateSome (bytes d.enc ++ r) = .ok r d :=
  mapRes_ok (rt_date ((NaiveDate.inv_iff d).2 h)) rfl

/-! ### Date and time -/

omit [Quirks] in
theorem reads_day : Reads dateDayFixed fun w n => Digits 2 w n ∨ ∃ d, w = b!" " ++ d ∧ Digits 1 d n := by
  constructor
  · rintro w n (h | ⟨d, rfl, h⟩) r
    · unfold dateDayFixed
      have := (digits_iff (by decide)).1 h
      match w, this with
      | [a, c], ⟨_, h2, h3⟩ =>
        simp only [List.all_cons, List.all_nil, Bool.and_true, Bool.and_eq_true] at h2
        have ha : ¬ a = 32 := by
          rintro rfl
          exact absurd h2.1 (by decide)
        refine Eq.trans (alt_skip (by simp [sp, char, ha])) (alt_hit (reads_digit2.reads h r))
    · unfold dateDayFixed
      have := (digits_iff (by decide)).1 h
      match d, this with
      | [a], ⟨_, h2, h3⟩ =>
        simp only [List.all_cons, List.all_nil, Bool.and_true] at h2
        refine alt_hit ?_
        simp [decVal] at h3
        simp [sp, char, satisfy, h2, h3]
  · intro x r n h
    unfold dateDayFixed at h
    obtain ⟨p, hp, h⟩ := exists_of_alt h
    simp only [List.mem_cons, List.not_mem_nil, or_false] at hp
    rcases hp with rfl | rfl
    · simp only [P.bind_apply, P.map_apply, Res.andThen_eq_ok, Res.ok.injEq] at h
      obtain ⟨i1, v1, ⟨i2, v2, e2, e1⟩, rfl, rfl⟩ := h
      obtain rfl := exists_of_char e2
      cases i2 with
      | nil => simp [satisfy] at e1
      | cons b i2 =>
        simp only [satisfy] at e1
        split at e1
        · next hb =>
          simp at e1
          obtain ⟨rfl, rfl⟩ := e1
          exact ⟨[32, b], rfl, .inr ⟨[b], rfl, (digits_iff (by decide)).2 ⟨rfl, by simp [hb], by simp [decVal]⟩⟩⟩
        · simp at e1
    · obtain ⟨w, rfl, hw⟩ := reads_digit2.only h
      exact ⟨w, rfl, .inl hw⟩

/-- The fields of a time, as written. -/
def TimeText (w : Bytes) (t : Nat × Nat × Nat) : Prop :=
  ∃ wh wi ws, w = wh ++ b!":" ++ wi ++ b!":" ++ ws ∧ Digits 2 wh t.1 ∧ Digits 2 wi t.2.1 ∧ Digits 2 ws t.2.2

omit [Quirks] in
theorem reads_time : Reads time fun w o => ∃ t, TimeText w t ∧ o = if t.1 < 24 ∧ t.2.1 < 60 ∧ t.2.2 < 60 then some t else none := by
  constructor
  · rintro w _ ⟨t, ⟨wh, wi, ws, rfl, h1, h2, h3⟩, rfl⟩ r
    simp [time, tag, reads_digit2.reads h1, reads_digit2.reads h2, reads_digit2.reads h3]
  · intro x r o h
    unfold time at h
    simp only [P.bind_apply] at h
    obtain ⟨i1, v1, e1, h⟩ := Res.andThen_eq_ok.1 h
    obtain ⟨i2, v2, e2, h⟩ := Res.andThen_eq_ok.1 h
    obtain ⟨i3, v3, e3, h⟩ := Res.andThen_eq_ok.1 h
    obtain ⟨i4, v4, e4, h⟩ := Res.andThen_eq_ok.1 h
    obtain ⟨i5, v5, e5, h⟩ := Res.andThen_eq_ok.1 h
    simp at h
    obtain ⟨rfl, rfl⟩ := h
    obtain ⟨w1, rfl, h1⟩ := reads_digit2.only e1
    obtain rfl := exists_of_tag e2
    obtain ⟨w3, rfl, h3⟩ := reads_digit2.only e3
    obtain rfl := exists_of_tag e4
    obtain ⟨w5, rfl, h5⟩ := reads_digit2.only e5
    exact ⟨w1 ++ b!":" ++ w3 ++ b!":" ++ w5, by simp, (v1, v3, v5), ⟨w1, w3, w5, rfl, h1, h3, h5⟩, rfl⟩

omit [Quirks] in
theorem zone_eq {wh wm : Bytes} {h m : Nat} (h1 : Digits 2 wh h) (h2 : Digits 2 wm m) (r : Bytes) :
    zone (43 :: (wh ++ (wm ++ r))) = .ok r (if 3600 * h + 60 * m < 86400 then some ((3600 * h + 60 * m : Nat) : Int) else none) ∧
    zone (45 :: (wh ++ (wm ++ r))) = .ok r (if 3600 * h + 60 * m < 86400 then some (-((3600 * h + 60 * m : Nat) : Int)) else none) := by
  constructor
  · simp only [zone, P.bind_apply, alt_cons, orElse, value, char, if_true, Res.andThen_ok, P.pure_apply, reads_digit2.reads h1,
      reads_digit2.reads h2]
  · simp only [zone, P.bind_apply, alt_cons, orElse, value, char, show ¬ (45 : UInt8) = 43 by decide, if_false, Res.andThen_error, if_true,
      Res.andThen_ok, P.pure_apply, reads_digit2.reads h1, reads_digit2.reads h2]
    simp

omit [Quirks] in
theorem zone_offset (h m : Nat) :
    (if 3600 * h + 60 * m < 86400 then some ((3600 * h + 60 * m : Nat) : Int) else none) =
      (if -86400 < (60 * (60 * h + m) : Int) ∧ (60 * (60 * h + m) : Int) < 86400 then some (60 * (60 * h + m) : Int) else none) ∧
    (if 3600 * h + 60 * m < 86400 then some (-((3600 * h + 60 * m : Nat) : Int)) else none) =
      (if -86400 < (-60 * (60 * h + m) : Int) ∧ (-60 * (60 * h + m) : Int) < 86400 then some (-60 * (60 * h + m) : Int) else none) := by
  by_cases hc : 3600 * h + 60 * m < 86400
  · rw [if_pos hc, if_pos hc, if_pos (by omega), if_pos (by omega)]
    exact ⟨congrArg some (by omega), congrArg some (by omega)⟩
  · rw [if_neg hc, if_neg hc, if_neg (by omega), if_neg (by omega)]
    exact ⟨rfl, rfl⟩

omit [Quirks] in
theorem reads_zone : Reads zone fun w o => ∃ z : Int, Zone w z ∧ o = if -86400 < z ∧ z < 86400 then some z else none := by
  constructor
  · rintro w o ⟨z, ⟨wh, wm, h, m, h1, h2, ⟨hw, hz⟩ | ⟨hw, hz⟩⟩, ho⟩ r
    · subst hw ho hz
      rw [← (zone_offset h m).1]
      simpa using (zone_eq h1 h2 r).1
    · subst hw ho hz
      rw [← (zone_offset h m).2]
      simpa using (zone_eq h1 h2 r).2
  · intro x r o h
    simp only [zone, P.bind_apply, Res.andThen_eq_ok] at h
    obtain ⟨i1, v1, e1, i2, v2, e2, i3, v3, e3, h⟩ := h
    simp only [P.pure_apply, Res.ok.injEq] at h
    obtain ⟨rfl, h⟩ := h
    obtain ⟨w2, rfl, h2⟩ := reads_digit2.only e2
    obtain ⟨w3, rfl, h3⟩ := reads_digit2.only e3
    obtain ⟨p, hp, e4⟩ := exists_of_alt e1
    simp only [List.mem_cons, List.not_mem_nil, or_false] at hp
    rcases hp with rfl | rfl
    · simp only [value, P.bind_apply, Res.andThen_eq_ok, P.pure_apply, Res.ok.injEq] at e4
      obtain ⟨i, u, e5, rfl, rfl⟩ := e4
      obtain rfl := exists_of_char e5
      refine ⟨b!"+" ++ w2 ++ w3, by simp, 60 * (60 * v2 + v3), ⟨w2, w3, v2, v3, h2, h3, .inl ⟨rfl, rfl⟩⟩, ?_⟩
      rw [← (zone_offset v2 v3).1, ← h]
      simp
    · simp only [value, P.bind_apply, Res.andThen_eq_ok, P.pure_apply, Res.ok.injEq] at e4
      obtain ⟨i, u, e5, rfl, rfl⟩ := e4
      obtain rfl := exists_of_char e5
      refine ⟨b!"-" ++ w2 ++ w3, by simp, -60 * (60 * v2 + v3), ⟨w2, w3, v2, v3, h2, h3, .inr ⟨rfl, rfl⟩⟩, ?_⟩
      rw [← (zone_offset v2 v3).2, ← h]
      simp

omit [Quirks] in
theorem zone_minutes {w : Bytes} {z : Int} (h : Zone w z) : z % 60 = 0 := by
  obtain ⟨_, _, _, _, _, _, ⟨_, rfl⟩ | ⟨_, rfl⟩⟩ := h <;> omega

omit [Quirks] in
theorem dateTime_ok {w : Bytes} {t : DateTime} (h : DateTimeText w t) (r : Bytes) :
    dateTime (w ++ r) = mkDateTime (fromYmdOpt t.date.year t.date.month t.date.day)
      (if t.hour < 24 ∧ t.minute < 60 ∧ t.second < 60 then some (t.hour, t.minute, t.second) else none)
      (if -86400 < t.offset ∧ t.offset < 86400 then some t.offset else none) r := by
  obtain ⟨wd, wm, wy, wh, wi, ws, wz, rfl, h1, h2, h3, h4, h5, h6, h7⟩ := h
  have ht := fun r => reads_time.reads ⟨(t.hour, t.minute, t.second), ⟨wh, wi, ws, rfl, h4, h5, h6⟩, rfl⟩ r
  have hz := fun r => reads_zone.reads ⟨t.offset, h7, rfl⟩ r
  have hd := fun r => reads_day.reads h1 r
  simp only [List.append_assoc] at ht
  simp only [dateTime, List.append_assoc, P.bind_apply, List.cons_append, List.nil_append, dquote, sp, char, tag, if_true, Res.andThen_ok, hd,
    dateMonth_ci h2, reads_digit4.reads h3] at ht ⊢
  simp only [ht, Res.andThen_ok, P.bind_apply, char, if_true, hz]

omit [Quirks] in
theorem dateTime_only {x r : Bytes} {t : DateTime} (h : dateTime x = .ok r t) : ∃ w, x = w ++ r ∧ DateTimeText w t := by
  simp only [dateTime, P.bind_apply, Res.andThen_eq_ok] at h
  obtain ⟨i1, v1, e1, i2, v2, e2, i3, v3, e3, i4, v4, e4, i5, v5, e5, i6, v6, e6, i7, v7, e7, i8, v8, e8, i9, v9, e9, i10, v10, e10,
    i11, v11, e11, h⟩ := h
  obtain rfl := exists_of_char e1
  obtain ⟨w2, rfl, h2⟩ := reads_day.only e2
  obtain rfl := exists_of_tag e3
  obtain ⟨w4, rfl, h4⟩ := reads_month.only e4
  obtain rfl := exists_of_tag e5
  obtain ⟨w6, rfl, h6⟩ := reads_digit4.only e6
  obtain rfl := exists_of_char e7
  obtain ⟨w8, rfl, t', h8, rfl⟩ := reads_time.only e8
  obtain rfl := exists_of_char e9
  obtain ⟨w10, rfl, z, h10, rfl⟩ := reads_zone.only e10
  obtain rfl := exists_of_char e11
  obtain ⟨d, hd, t2, ht2, z2, hz2, rfl⟩ := (Canon.post (p := mkDateTime _ _ _)) _ _ _ h
  obtain ⟨rfl, -⟩ := (fromYmdOpt_eq_some (year_le h6)).1 hd
  split at ht2 <;> simp at ht2
  split at hz2 <;> simp at hz2
  subst ht2 hz2
  have hr : i11 = r := by
    rw [hd] at h
    simp_all [mkDateTime]
  subst hr
  obtain ⟨wh, wi, ws, rfl, h81, h82, h83⟩ := h8
  exact ⟨b!"\"" ++ w2 ++ b!"-" ++ w4 ++ b!"-" ++ w6 ++ b!" " ++ wh ++ b!":" ++ wi ++ b!":" ++ ws ++ b!" " ++ w10 ++ b!"\"", by simp,
    w2, w4, w6, wh, wi, ws, w10, rfl, h2, h4, h6, h81, h82, h83, h10⟩

omit [Quirks] in
theorem dateTimeText_year {w : Bytes} {t : DateTime} (h : DateTimeText w t) : t.date.year < 10000 := by
  obtain ⟨_, _, _, _, _, _, _, _, _, _, h, _⟩ := h
  exact year_le h

omit [Quirks] in
theorem dateTimeText_minutes {w : Bytes} {t : DateTime} (h : DateTimeText w t) : t.offset % 60 = 0 := by
  obtain ⟨_, _, _, _, _, _, _, _, _, _, _, _, _, _, h⟩ := h
  exact zone_minutes h

omit [Quirks] in
/-- C32: a date and time that are written as RFC 3501 says are decoded if they exist, and are an error otherwise. -/
theorem C32_dateTime_written {w : Bytes} {t : DateTime} (h : DateTimeText w t) (r : Bytes) :
    (DateTime.Inv t → dateTime (w ++ r) = .ok r t) ∧ (¬ DateTime.Inv t → dateTime (w ++ r) = .failure .badDateTime) := by
  rw [dateTime_ok h r]
  constructor
  · rintro ⟨h1, h2, h3, h4, h5, h6, h7⟩
    rw [(fromYmdOpt_eq_some (r := t.date) (dateTimeText_year h)).2 ⟨rfl, (NaiveDate.inv_iff _).2 h1⟩, if_pos ⟨h2, h3, h4⟩, if_pos ⟨h5, h6⟩]
    rfl
  · intro hi
    generalize e1 : fromYmdOpt t.date.year t.date.month t.date.day = o1
    generalize e2 : (if t.hour < 24 ∧ t.minute < 60 ∧ t.second < 60 then some (t.hour, t.minute, t.second) else none) = o2
    generalize e3 : (if -86400 < t.offset ∧ t.offset < 86400 then some t.offset else none) = o3
    unfold mkDateTime
    split
    · next d t' z =>
      obtain ⟨rfl, hv⟩ := (fromYmdOpt_eq_some (dateTimeText_year h)).1 e1
      split at e2 <;> simp at e2
      next h1 =>
      split at e3 <;> simp at e3
      next h2 =>
      exact absurd ⟨(NaiveDate.inv_iff _).1 hv, h1.1, h1.2.1, h1.2.2, h2.1, h2.2, dateTimeText_minutes h⟩ hi
    · rfl

omit [Quirks] in
/-- C32: a date and time are decoded if and only if they are written as RFC 3501 says and exist. -/
theorem C32_dateTime (x r : Bytes) (t : DateTime) :
    dateTime x = .ok r t ↔ ∃ w, x = w ++ r ∧ DateTimeText w t ∧ DateTime.Inv t := by
  constructor
  · intro h
    obtain ⟨w, rfl, hw⟩ := dateTime_only h
    refine ⟨w, rfl, hw, ?_⟩
    by_contra hi
    rw [(C32_dateTime_written hw r).2 hi] at h
    simp at h
  · rintro ⟨w, rfl, h, hi⟩
    exact (C32_dateTime_written h r).1 hi

omit [Quirks] in
/-- C32: the encoded form of a date and time is decoded to them. -/
theorem C32_dateTime_roundtrip {t : DateTime} (h : DateTime.Inv t) (r : Bytes) : dateTime (bytes t.enc ++ r) = .ok r t :=
  rt_dateTime ((DateTime.inv_iff t).2 h)

/-! ### In messages -/

omit [Quirks] in
theorem sepList1_one {α : Type} {sep : P Unit} {p : P α} {x r : Bytes} {v : α} (h : p x = .ok r v) (hr : sep r = .error) :
    sepList1 sep p x = .ok r [v] := by
  have : many0 (do sep; p) r = .ok r [] := many0_stop (by simp [hr])
  simp [sepList1, h, this]

theorem fetch_ok {y r : Bytes} {l : List MessageDataItem} (h : msgAtt y = .ok r l) :
    responseDataInner (b!"1 FETCH " ++ y) = .ok r (.data (.fetch 1 l)) := by
  have := responseDataInner_message (n := 1) (c := 70) (x := b!"ETCH " ++ y) (r := r) (d := .fetch 1 l) (by decide) (by decide) rfl rfl (by
    unfold messageDataTail
    refine Eq.trans (alt_skip rfl) (alt_hit (map_ok ?_))
    simp [tagNC, h])
  rw [show showNat 1 = b!"1" by simp [showNat]] at this
  exact this

theorem fetch_failure {y : Bytes} {k : Fail} (h : msgAtt y = .failure k) : responseDataInner (b!"1 FETCH " ++ y) = .failure k := by
  have hb : isLetter 49 = false := by decide
  show responseDataInner (49 :: (b!" FETCH " ++ y)) = _
  rw [responseDataInner_digit hb]
  have e := C31_number (ds := b!"1") (rest := b!" FETCH " ++ y) ⟨by decide, by decide⟩ ⟨32, _, rfl, by decide⟩
  have e' := C31_nzNumber (ds := b!"1") (rest := b!" FETCH " ++ y) ⟨by decide, by decide⟩ ⟨32, _, rfl, by decide⟩
  have hv : Spec.value b!"1" = 1 := by decide
  rw [hv] at e e'
  simp only [List.cons_append, List.nil_append] at e e' ⊢
  have h1 : mailboxData (49 :: 32 :: 70 :: 69 :: 84 :: 67 :: 72 :: 32 :: y) = .error := by
    rw [mailboxData_digit hb]
    have q1 : quotarootResponse (49 :: 32 :: 70 :: 69 :: 84 :: 67 :: 72 :: 32 :: y) = .error := by simp [quotarootResponse, tagNC_nonletter hb]
    have q2 : quotaResponse (49 :: 32 :: 70 :: 69 :: 84 :: 67 :: 72 :: 32 :: y) = .error := by simp [quotaResponse, tagNC_nonletter hb]
    simp [alt_cons, orElse, e, tagNC, lower, q1, q2]
  refine Eq.trans (alt_skip (by simp [h1])) ?_
  have h2 : messageData (49 :: 32 :: 70 :: 69 :: 84 :: 67 :: 72 :: 32 :: y) = .failure k := by
    simp [messageData, alt_cons, orElse, e', sp_cons, messageDataTail, value, tagNC, lower, h]
  simp [alt_cons, orElse, h2]

theorem internaldate_item {w : Bytes} {z : Bytes} : alt [msgAttDynamic, msgAttStatic] (b!"INTERNALDATE " ++ (w ++ 41 :: z)) =
    match dateTime (w ++ 41 :: z) with
    | .ok r t => .ok r (.internalDate t)
    | .failure k => .failure k
    | _ => alt [msgAttDynamic, msgAttStatic] (b!"INTERNALDATE " ++ (w ++ 41 :: z)) := by
  cases e : dateTime (w ++ 41 :: z) with
  | ok r t =>
    alt_at 1
    unfold msgAttStatic
    alt_at 1
    simp [tagNC, e]
  | failure k =>
    skip_alts 1
    have : msgAttStatic (b!"INTERNALDATE " ++ (w ++ 41 :: z)) = .failure k := by
      unfold msgAttStatic
      skip_alts 1
      simp [alt_cons, orElse, tagNC, e]
    rw [alt_cons, orElse, this]
  | _ => rfl

/-- C32, for the item INTERNALDATE of a FETCH response: the message is accepted if and only if the date and time exist. -/
theorem C32_internaldate {w : Bytes} {t : DateTime} (h : DateTimeText w t) (r : Bytes) :
    (DateTime.Inv t → Codec.response.decode (b!"* 1 FETCH (INTERNALDATE " ++ w ++ b!")\r\n" ++ r) =
      .ok r (.data (.fetch 1 [.internalDate t]) : Response)) ∧
    (¬ DateTime.Inv t → Codec.response.decode (b!"* 1 FETCH (INTERNALDATE " ++ w ++ b!")\r\n" ++ r) = .failed) := by
  have item := fun z => internaldate_item (w := w) (z := z)
  constructor
  · intro hi
    have e : response (b!"* " ++ (b!"1 FETCH " ++ (b!"(INTERNALDATE " ++ w ++ b!")")) ++ b!"\r\n" ++ r) =
        .ok r (.data (.fetch 1 [.internalDate t])) := by
      refine rt_responseData fun r => ?_
      rw [List.append_assoc]
      refine fetch_ok ?_
      have := item (13 :: 10 :: r)
      rw [(C32_dateTime_written h _).1 hi] at this
      have := sepList1_one (sep := sp) this rfl
      simp only [List.cons_append, List.nil_append, List.append_assoc] at this ⊢
      simp only [msgAtt, P.bind_apply, tag, if_true, Res.andThen_ok, this, P.pure_apply]
    show outcomeResponse (response _) = _
    rw [show b!"* 1 FETCH (INTERNALDATE " ++ w ++ b!")\r\n" ++ r =
      b!"* " ++ (b!"1 FETCH " ++ (b!"(INTERNALDATE " ++ w ++ b!")")) ++ b!"\r\n" ++ r by simp, e]
    rfl
  · intro hi
    have e1 : msgAtt (b!"(INTERNALDATE " ++ (w ++ 41 :: 13 :: 10 :: r)) = .failure .badDateTime := by
      have := item (13 :: 10 :: r)
      rw [(C32_dateTime_written h _).2 hi] at this
      simp only [List.cons_append, List.nil_append] at this ⊢
      simp only [msgAtt, P.bind_apply, tag, if_true, Res.andThen_ok, sepList1, this, Res.andThen_failure]
    have e : response (b!"* " ++ (b!"1 FETCH " ++ (b!"(INTERNALDATE " ++ (w ++ 41 :: 13 :: 10 :: r)))) = .failure .badDateTime := by
      have e2 : responseData (b!"* " ++ (b!"1 FETCH " ++ (b!"(INTERNALDATE " ++ (w ++ 41 :: 13 :: 10 :: r)))) = .failure .badDateTime := by
        have := fetch_failure e1
        simp only [List.cons_append, List.nil_append] at this ⊢
        simp [responseData, tag, this]
      unfold response
      split
      · skip_alts 2
        rw [alt_cons, orElse, e2]
      · skip_alts 1
        rw [alt_cons, orElse, e2]
    show outcomeResponse (response _) = _
    rw [show b!"* 1 FETCH (INTERNALDATE " ++ w ++ b!")\r\n" ++ r =
      b!"* " ++ (b!"1 FETCH " ++ (b!"(INTERNALDATE " ++ (w ++ 41 :: 13 :: 10 :: r))) by simp, e]
    rfl

/-- C32, for the key SINCE of the command SEARCH: the command is accepted if and only if the date exists. -/
theorem C32_since {w : Bytes} {d : NaiveDate} (h : Date w d) (r : Bytes) :
    (NaiveDate.Inv d → Codec.command.decode (b!"A SEARCH SINCE " ++ w ++ b!"\r\n" ++ r) =
      .ok r (⟨b!"A", .search none [.since d] false⟩ : Command)) ∧
    (¬ NaiveDate.Inv d → Codec.command.decode (b!"A SEARCH SINCE " ++ w ++ b!"\r\n" ++ r) = .failed) := by
  have go : ∀ R : Res CommandBody, search (b!"SEARCH SINCE " ++ (w ++ 13 :: 10 :: r)) = R → (R = .error ∨ ∃ b, R = .ok (13 :: 10 :: r) b) →
      command (b!"A SEARCH SINCE " ++ w ++ b!"\r\n" ++ r) = R.andThen fun b _ => .ok r ⟨b!"A", b⟩ := by
    intro R hR hc
    have h1 : commandSelect (b!"SEARCH SINCE " ++ (w ++ 13 :: 10 :: r)) = R := by
      unfold commandSelect
      skip_alts 8
      rcases hc with rfl | ⟨b, rfl⟩
      · refine Eq.trans (alt_skip hR) ?_
        skip_alts 4
        rfl
      · exact alt_hit hR
    have h2 : alt [commandAny, commandAuth, commandNonauth, commandSelect] (b!"SEARCH SINCE " ++ (w ++ 13 :: 10 :: r)) = R := by
      skip_alts 3
      rcases hc with rfl | ⟨b, rfl⟩
      · exact Eq.trans (alt_skip h1) rfl
      · exact alt_hit h1
    have h3 : tagImap (b!"A SEARCH SINCE " ++ (w ++ 13 :: 10 :: r)) = .ok (b!" SEARCH SINCE " ++ (w ++ 13 :: 10 :: r)) b!"A" := rfl
    rw [show b!"A SEARCH SINCE " ++ w ++ b!"\r\n" ++ r = b!"A SEARCH SINCE " ++ (w ++ 13 :: 10 :: r) by simp]
    simp only [command, P.bind_apply, h3, Res.andThen_ok]
    simp only [List.cons_append, List.nil_append, sp_cons, Res.andThen_ok] at h2 ⊢
    simp only [commandBody, P.bind_apply, h2]
    rcases hc with rfl | ⟨b, rfl⟩
    · rfl
    · simp [rt_crlf, fillTag]
  have key : search (b!"SEARCH SINCE " ++ (w ++ 13 :: 10 :: r)) =
      (sepList1 sp (searchKey 9) (b!"SINCE " ++ (w ++ 13 :: 10 :: r))).andThen fun l r => .ok r (.search none l false) := rfl
  constructor
  · intro hi
    have h1 : searchKey 9 (b!"SINCE " ++ (w ++ 13 :: 10 :: r)) = .ok (13 :: 10 :: r) (.since d) := by
      unfold searchKey
      alt_at 15
      have := (C32_date (w ++ 13 :: 10 :: r) (13 :: 10 :: r) d).2 ⟨w, rfl, h, hi⟩
      simp [tagNC, sp_cons, this]
    rw [sepList1_one h1 rfl, Res.andThen_ok] at key
    show outcomeCommand (command _) = _
    rw [go _ key (.inr ⟨_, rfl⟩)]
    rfl
  · intro hi
    have h1 : searchKey 9 (b!"SINCE " ++ (w ++ 13 :: 10 :: r)) = .error := by
      unfold searchKey
      skip_alts 15
      have := C32_date_nonexistent h hi (13 :: 10 :: r)
      refine Eq.trans (alt_skip (by simp [tagNC, sp_cons, this])) ?_
      skip_alts 22
      rfl
    rw [show sepList1 sp (searchKey 9) (b!"SINCE " ++ (w ++ 13 :: 10 :: r)) = .error by
      simp only [sepList1, P.bind_apply, h1, Res.andThen_error], Res.andThen_error] at key
    show outcomeCommand (command _) = _
    rw [go _ key (.inl rfl)]
    rfl

end Imap

namespace Imap.DatesExamples
open Spec
local instance : Quirks := Quirks.default

/-- A leap day, with a one-digit hour zone and a lowercase month. -/
example : DateTimeText b!"\"29-feb-2024 23:59:59 -0930\"" ⟨⟨2024, 2, 29⟩, 23, 59, 59, -34200⟩ ∧
    DateTime.Inv ⟨⟨2024, 2, 29⟩, 23, 59, 59, -34200⟩ := by
  refine ⟨⟨b!"29", b!"feb", b!"2024", b!"23", b!"59", b!"59", b!"-0930", rfl, .inl ?_, ⟨by decide, rfl⟩, ?_, ?_, ?_, ?_,
    b!"09", b!"30", 9, 30, ?_, ?_, .inr ⟨rfl, by decide⟩⟩, ?_⟩
  all_goals first | exact ⟨⟨by decide, by decide⟩, by decide, by decide⟩ | (simp [DateTime.Inv, NaiveDate.Inv, monthDays])

/-- 2023 is no leap year. -/
example : Date b!"\"29-Feb-2023\"" ⟨2023, 2, 29⟩ ∧ ¬ NaiveDate.Inv ⟨2023, 2, 29⟩ := by
  refine ⟨.inr ⟨b!"29-Feb-2023", rfl, b!"29", b!"Feb", b!"2023", rfl, .inr ?_, ⟨by decide, rfl⟩, ?_⟩, ?_⟩
  all_goals first | exact ⟨⟨by decide, by decide⟩, by decide, by decide⟩ | (simp [NaiveDate.Inv, monthDays])

example : Date b!"1-JAN-0000" ⟨0, 1, 1⟩ ∧ NaiveDate.Inv ⟨0, 1, 1⟩ := by
  refine ⟨.inl ⟨b!"1", b!"JAN", b!"0000", rfl, .inl ?_, ⟨by decide, rfl⟩, ?_⟩, ?_⟩
  all_goals first | exact ⟨⟨by decide, by decide⟩, by decide, by decide⟩ | (simp [NaiveDate.Inv, monthDays])

example : Codec.command.decode b!"A SEARCH SINCE 29-Feb-2023\r\n" = .failed := by with_unfolding_all rfl

end Imap.DatesExamples
