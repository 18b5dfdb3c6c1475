import Verif.Props.Grammar
import Verif.Props.GrammarServer
import Verif.WellFormedLemmas
/-
Lemmas for C66: how the messages of each kind begin, and what the other decoders do with such a beginning.
-/
set_option maxRecDepth 10000
namespace Imap.Gr

open Imap.Grammar (G Star choice onlyIf optD sepBy1 sepBy0 such token octets named lit is plus)

variable {α β : Type}

/-! ### Parsers that stop before a space -/

/-- No line break. -/
def NoBreak (a : Bytes) : Prop := ∀ b ∈ a, b ≠ 13 ∧ b ≠ 10

/-- With a space ahead, and no line break before it, the parser rejects or stops before the space at the latest. -/
class Stops (p : P α) : Prop where
  out : ∀ {a i : Bytes}, NoBreak a → p (a ++ 32 :: i) = .error ∨ ∃ a' v, p (a ++ 32 :: i) = .ok (a' ++ 32 :: i) v ∧ NoBreak a'

theorem NoBreak.tail {b : UInt8} {a : Bytes} (h : NoBreak (b :: a)) : NoBreak a := fun c hc => h c (List.mem_cons_of_mem _ hc)

theorem Stops.takeWhile {f : UInt8 → Bool} (hf : f 32 = false) : Stops (takeWhile f) := ⟨by
  intro a i h
  refine .inr ?_
  induction a with
  | nil => exact ⟨[], [], by simp [Imap.takeWhile, hf], by simp [NoBreak]⟩
  | cons b a ih =>
    cases hb : f b with
    | true =>
      obtain ⟨a', v, e, ha⟩ := ih h.tail
      exact ⟨a', b :: v, by simp [Imap.takeWhile, hb, e], ha⟩
    | false => exact ⟨b :: a, [], by simp [Imap.takeWhile, hb], h⟩⟩

theorem Stops.tagNC {k : Bytes} (hk : 32 ∉ lowerAll k) : Stops (tagNC k) := ⟨by
  intro a i h
  induction k generalizing a with
  | nil => exact .inr ⟨a, (), rfl, h⟩
  | cons c k ih =>
    simp only [lowerAll, List.map_cons, List.mem_cons, not_or] at hk
    cases a with
    | nil =>
      have e : lower c ≠ lower 32 := fun e => hk.1 (by rw [e]; rfl)
      exact .inl (by simp [Imap.tagNC, e])
    | cons b a =>
      by_cases e : lower c = lower b
      · simpa [Imap.tagNC, e] using ih hk.2 h.tail
      · exact .inl (by simp [Imap.tagNC, e])⟩

theorem Stops.tag {k : Bytes} (hk : 32 ∉ k) : Stops (tag k) := ⟨by
  intro a i h
  induction k generalizing a with
  | nil => exact .inr ⟨a, (), rfl, h⟩
  | cons c k ih =>
    simp only [List.mem_cons, not_or] at hk
    cases a with
    | nil => exact .inl (by simp [Imap.tag, Ne.symm hk.1])
    | cons b a =>
      by_cases e : c = b
      · subst e
        simpa [Imap.tag] using ih hk.2 h.tail
      · exact .inl (by simp [Imap.tag, e])⟩

theorem Stops.orElse {p p' : P α} (h : Stops p) (h' : Stops p') : Stops (orElse p p') := ⟨by
  intro a i ha
  rcases h.out (i := i) ha with e | ⟨a', v, e, h1⟩
  · rw [orElse_error e]
    exact h'.out ha
  · exact .inr ⟨a', v, orElse_ok e, h1⟩⟩

theorem Stops.fail : Stops (P.fail : P α) := ⟨fun _ => .inl rfl⟩

theorem Stops.opt {p : P α} (h : Stops p) : Stops (opt p) := ⟨by
  intro a i ha
  rcases h.out (i := i) ha with e | ⟨a', v, e, h1⟩
  · exact .inr ⟨a, none, opt_error e, ha⟩
  · exact .inr ⟨a', some v, opt_ok e, h1⟩⟩

theorem Stops.bind {p : P α} {f : α → P β} (h : Stops p) (h' : ∀ v, Stops (f v)) : Stops (p >>= f) := ⟨by
  intro a i ha
  rw [P.bind_apply]
  rcases h.out (i := i) ha with e | ⟨a', v, e, h1⟩
  · rw [e]; exact .inl rfl
  · rw [e]; exact (h' v).out h1⟩

theorem Stops.recognize {p : P α} (h : Stops p) : Stops (recognize p) := ⟨by
  intro a i ha
  rcases h.out (i := i) ha with e | ⟨a', v, e, h1⟩
  · exact .inl (by simp [Imap.recognize, e])
  · exact .inr ⟨a', (a ++ 32 :: i).take ((a ++ 32 :: i).length - (a' ++ 32 :: i).length), by simp only [Imap.recognize, e, Res.andThen_ok], h1⟩⟩

theorem Stops.mapRes {p : P α} {f : α → Option β} (h : Stops p) : Stops (mapRes p f) := ⟨by
  intro a i ha
  rcases h.out (i := i) ha with e | ⟨a', v, e, h1⟩
  · exact .inl (by simp [Imap.mapRes, e])
  · cases hf : f v with
    | none => exact .inl (by simp [Imap.mapRes, e, hf])
    | some w => exact .inr ⟨a', w, by simp [Imap.mapRes, e, hf], h1⟩⟩

theorem Stops.base64 : Stops base64 :=
  .mapRes (.recognize (.bind (.takeWhile (by decide)) fun _ => .opt (.orElse (.tag (by decide)) (.orElse (.tag (by decide)) .fail))))

variable [q : Quirks]

theorem crlf_space {a i : Bytes} (h : NoBreak a) : crlf (a ++ 32 :: i) = .error := by
  cases a with
  | nil => exact crlf_error (by decide)
  | cons b a => exact crlf_error (h b (by simp))

omit q in
theorem Stops.line {p : P α} {f : α → P β} (h : Stops p) {a i : Bytes} (ha : NoBreak a)
    (hf : ∀ v {a' : Bytes}, NoBreak a' → f v (a' ++ 32 :: i) = .error) : (p >>= f) (a ++ 32 :: i) = .error := by
  rw [P.bind_apply]
  rcases h.out (i := i) ha with e | ⟨a', v, e, h1⟩
  · rw [e]; rfl
  · rw [e, Res.andThen_ok, hf v h1]

/-- What has a space before its first line break is no authenticate data. -/
theorem authenticateData_space {a i : Bytes} (ha : NoBreak a) : authenticateData (a ++ 32 :: i) = .error := by
  refine alt_error ?_
  simp only [List.mem_cons, List.not_mem_nil, or_false, forall_eq_or_imp, forall_eq]
  refine ⟨?_, ?_⟩
  · rw [P.map_apply, Stops.base64.line ha fun _ _ h => by rw [P.bind_apply, crlf_space h]; rfl]
    rfl
  · rw [value, P.bind_apply, (Stops.tag (k := b!"*") (by decide)).line ha fun _ => crlf_space]
    rfl

/-- What has a space before its first line break does not end IDLE. -/
theorem idleDone_space {a i : Bytes} (ha : NoBreak a) : idleDone (a ++ 32 :: i) = .error := by
  rw [idleDone, value, P.bind_apply, (Stops.tagNC (k := b!"DONE") (by decide)).line ha fun _ => crlf_space]
  rfl

omit q in
theorem noBreak_tag {t : Bytes} (h : isTagStr t = true) : NoBreak t := by
  have key : ∀ b, isTagChar b = true → b ≠ 13 ∧ b ≠ 10 := forall_byte (by decide)
  simp only [isTagStr, Bool.and_eq_true, List.all_eq_true] at h
  exact fun b hb => key b (h.2 b hb)

/-! ### The words after the tag -/

/-- How commands of the selected state begin. -/
def selectHeads : List Bytes := [b!"CHECK", b!"CLOSE", b!"EXPUNGE", b!"UID EXPUNGE ", b!"COPY", b!"FETCH", b!"STORE", b!"SEARCH", b!"UID SORT ",
  b!"SORT ", b!"UID THREAD ", b!"THREAD ", b!"UNSELECT", b!"MOVE"] ++ uidHeads.map fun k => b!"UID " ++ k

instance : Errs commandSelect selectHeads := by
  unfold commandSelect
  exact Errs.mono inferInstance (by decide +kernel)

omit q in
theorem err_of_begins {p : P α} {E : List Bytes} [h : Errs p E] {k x : Bytes} (hb : Begins k x) (hk : (E.all fun e => diverges e k) = true) :
    p x = .error :=
  h.out fun e he => diverges_of_begins hb (List.all_eq_true.1 hk e he)

/-- The words of status responses are no commands. -/
theorem commandBody_status {k i : Bytes} (hk : k ∈ [b!"OK ", b!"NO ", b!"BAD "]) (hb : Begins k i) : Imap.commandBody i = .error := by
  have e : alt [commandAny, commandAuth, commandNonauth, commandSelect] i = .error := by
    simp only [List.mem_cons, List.not_mem_nil, or_false] at hk
    rcases hk with rfl | rfl | rfl <;> exact err_of_begins hb (by decide +kernel)
  rw [Imap.commandBody, P.bind_apply, e]
  rfl

/-- The names of commands are no words of status responses. -/
theorem condStateKind_command {w r : Bytes} {v : CommandBody} (h : Grammar.commandBody w v) (hr : Starts T r) :
    condStateKind (w ++ r) = .error :=
  Errs.of_begs (inferInstance : Errs condStateKind _)
    (inferInstance : Begs (choice [choice gAny, choice gAuth, choice gNonauth, choice gSelect]) T _) (by decide +kernel)
    (commandBody_iff.2 h) hr

/-! ### First bytes -/

omit q in
theorem tag_first {c b : UInt8} {k x : Bytes} (h : b ≠ c) : tag (c :: k) (b :: x) = .error := by
  simp [Imap.tag, Ne.symm h]

theorem command_first {b : UInt8} {x : Bytes} (h : isTagChar b = false) : command (b :: x) = .error := by
  rw [command_eq]
  have e : tagImap (b :: x) = .error := by simp [tagImap, takeWhile1, h]
  rw [e]; rfl

theorem greeting_first {b : UInt8} {x : Bytes} (h : b ≠ 42) : greeting (b :: x) = .error := by
  rw [greeting, P.bind_apply, tag_first h]; rfl

omit q in
theorem tagImap_ok_space {t i : Bytes} (h : isTagStr t = true) : tagImap (t ++ 32 :: i) = .ok (32 :: i) t := by
  have ht : Fits tagImap Grammar.tag b!" " := fits_takeWhile1 Spec.tagChar_iff (by decide)
  simp only [isTagStr, Bool.and_eq_true, List.all_eq_true, Bool.not_eq_true', List.isEmpty_eq_false_iff] at h
  exact ht.complete ⟨rfl, h.1, fun b hb => (Spec.tagChar_iff b).1 (h.2 b hb)⟩ ⟨32, i, rfl, by simp⟩

theorem command_tagged {t i k : Bytes} (h : isTagStr t = true) (hk : k ∈ [b!"OK ", b!"NO ", b!"BAD "]) (hb : Begins k i) :
    command (t ++ 32 :: i) = .error := by
  rw [command_eq, tagImap_ok_space h]
  have e : (sp (32 :: i)) = .ok i () := rfl
  rw [Res.andThen_ok, e, Res.andThen_ok, taggedBody, P.bind_apply, commandBody_status hk hb]
  rfl

theorem response_tagged {t i : Bytes} (h : isTagStr t = true) (hc : condStateKind i = .error) : response (t ++ 32 :: i) = .error := by
  have ht := tagImap_ok_space (i := i) h
  obtain ⟨b, t', rfl⟩ : ∃ b t', t = b :: t' := by cases t <;> simp [isTagStr] at h ⊢
  have key : ∀ b, isTagChar b = true → b ≠ 42 ∧ b ≠ 43 := forall_byte (by decide)
  have hb := key b (by simp [isTagStr] at h; exact h.1)
  have h1 : emptyContinueReq (b :: (t' ++ 32 :: i)) = .error := by rw [emptyContinueReq, P.bind_apply, tag_first hb.2]; rfl
  have h2 : continueReq (b :: (t' ++ 32 :: i)) = .error := by
    rw [continueReq, mapRes, continueInner, P.bind_apply, tag_first hb.2]; rfl
  have h3 : responseData (b :: (t' ++ 32 :: i)) = .error := by rw [responseData, P.bind_apply, tag_first hb.1]; rfl
  have h4 : responseFatal (b :: (t' ++ 32 :: i)) = .error := by rw [responseFatal, P.bind_apply, tag_first hb.1]; rfl
  have h5 : responseTagged (b :: (t' ++ 32 :: i)) = .error := by
    have e : (sp (32 :: i)) = .ok i () := rfl
    rw [responseTagged, P.bind_apply]
    rw [List.cons_append] at ht
    rw [ht, Res.andThen_ok, P.bind_apply, e, Res.andThen_ok, P.bind_apply, respCondState, P.bind_apply, hc]
    rfl
  have h6 : responseDone (b :: (t' ++ 32 :: i)) = .error := by
    rw [responseDone, alt_cons, orElse_error h5, alt_cons, orElse_error h4]; rfl
  refine alt_error fun p hp => ?_
  simp only [List.mem_append, List.mem_cons, List.not_mem_nil, or_false] at hp
  rcases hp with hp | rfl | rfl | rfl
  · split at hp
    · simp only [List.mem_cons, List.not_mem_nil, or_false] at hp
      subst hp
      rw [P.map_apply, List.cons_append, h1]; rfl
    · simp at hp
  · rw [P.map_apply, List.cons_append, h2]; rfl
  · exact h3
  · rw [P.map_apply, List.cons_append, h6]; rfl

/-! ### Lines without a space -/

omit q in
theorem takeWhile_noSpace {f : UInt8 → Bool} {p i : Bytes} {c : UInt8} (hc : f c = false) (hc' : c ≠ 32) (hp : 32 ∉ p) :
    ∃ b r v, takeWhile f (p ++ c :: i) = .ok (b :: r) v ∧ b ≠ 32 := by
  induction p with
  | nil => exact ⟨c, i, [], by simp [Imap.takeWhile, hc], hc'⟩
  | cons b p ih =>
    simp only [List.mem_cons, not_or] at hp
    cases hb : f b with
    | true =>
      obtain ⟨b', r, v, e, h⟩ := ih hp.2
      exact ⟨b', r, b :: v, by simp [Imap.takeWhile, hb, e], h⟩
    | false => exact ⟨b, p ++ c :: i, [], by simp [Imap.takeWhile, hb], Ne.symm hp.1⟩

omit q in
theorem tagSp_noSpace {f : Bytes → Unit → P β} {p i : Bytes} {c : UInt8} (hc : c = 13 ∨ c = 10) (hp : 32 ∉ p) :
    (tagImap >>= fun t => sp >>= f t) (p ++ c :: i) = .error := by
  have key : isTagChar c = false ∧ c ≠ 32 := by rcases hc with rfl | rfl <;> decide
  have h : tagImap (p ++ c :: i) = .error ∨ ∃ b r v, tagImap (p ++ c :: i) = .ok (b :: r) v ∧ b ≠ 32 := by
    cases p with
    | nil => exact .inl (by simp [tagImap, takeWhile1, key.1])
    | cons a p =>
      cases ha : isTagChar a with
      | false => exact .inl (by simp [tagImap, takeWhile1, ha])
      | true =>
        refine .inr ?_
        obtain ⟨b, r, v, e, h⟩ := takeWhile_noSpace (i := i) key.1 key.2 hp
        exact ⟨b, r, v, by rw [← e]; simp [tagImap, takeWhile1, ha], h⟩
  rw [P.bind_apply]
  rcases h with e | ⟨b, r, v, e, h⟩
  · rw [e]; rfl
  · have e' : sp (b :: r) = .error := by simp [sp, char, h]
    rw [e, Res.andThen_ok, P.bind_apply, e']
    rfl

/-- A line without a space is no command. -/
theorem command_noSpace {p i : Bytes} {c : UInt8} (hc : c = 13 ∨ c = 10) (hp : 32 ∉ p) : command (p ++ c :: i) = .error :=
  tagSp_noSpace hc hp

omit q in
theorem tag2_noSpace {p i : Bytes} {a c : UInt8} (hc : c = 13 ∨ c = 10) (ha : a ≠ 13 ∧ a ≠ 10) (hp : 32 ∉ p) :
    tag [a, 32] (p ++ c :: i) = .error := by
  cases p with
  | nil => exact tag_first (by rcases hc with rfl | rfl <;> [exact Ne.symm ha.1; exact Ne.symm ha.2])
  | cons b p =>
    simp only [List.mem_cons, not_or] at hp
    by_cases e : a = b
    · subst e
      cases p with
      | nil => rcases hc with rfl | rfl <;> simp [Imap.tag]
      | cons b' p =>
        simp only [List.mem_cons, not_or] at hp
        simp [Imap.tag, hp.2.1]
    · simp [Imap.tag, e]

/-- A line without a space is no greeting. -/
theorem greeting_noSpace {p i : Bytes} {c : UInt8} (hc : c = 13 ∨ c = 10) (hp : 32 ∉ p) : greeting (p ++ c :: i) = .error := by
  rw [greeting, P.bind_apply, tag2_noSpace hc (by decide) hp]
  rfl

/-- A line without a space is no response, unless it is a plus sign. -/
theorem response_noSpace {p i : Bytes} {c : UInt8} (hc : c = 13 ∨ c = 10) (hp : 32 ∉ p) (hb : NoBreak p) (h43 : p ≠ [43]) :
    response (p ++ c :: i) = .error := by
  have h1 : emptyContinueReq (p ++ c :: i) = .error := by
    rw [emptyContinueReq, P.bind_apply]
    cases p with
    | nil => rw [List.nil_append, tag_first (by rcases hc with rfl | rfl <;> decide)]; rfl
    | cons b p =>
      by_cases e : b = 43
      · subst e
        cases p with
        | nil => exact absurd rfl h43
        | cons b' p =>
          have e : tag [43] (43 :: b' :: p ++ c :: i) = .ok (b' :: p ++ c :: i) () := rfl
          rw [e, Res.andThen_ok, P.bind_apply, List.cons_append, crlf_error (hb b' (by simp))]
          rfl
      · rw [List.cons_append, tag_first e]; rfl
  have h2 : continueReq (p ++ c :: i) = .error := by
    rw [continueReq, mapRes, continueInner, P.bind_apply, tag2_noSpace hc (by decide) hp]; rfl
  have h3 : responseData (p ++ c :: i) = .error := by rw [responseData, P.bind_apply, tag2_noSpace hc (by decide) hp]; rfl
  have h4 : responseFatal (p ++ c :: i) = .error := by rw [responseFatal, P.bind_apply, tag2_noSpace hc (by decide) hp]; rfl
  have h5 : responseTagged (p ++ c :: i) = .error := tagSp_noSpace hc hp
  have h6 : responseDone (p ++ c :: i) = .error := by
    rw [responseDone, alt_cons, orElse_error h5, alt_cons, orElse_error h4]; rfl
  refine alt_error fun f hf => ?_
  simp only [List.mem_append, List.mem_cons, List.not_mem_nil, or_false] at hf
  rcases hf with hf | rfl | rfl | rfl
  · split at hf
    · simp only [List.mem_cons, List.not_mem_nil, or_false] at hf
      subst hf
      rw [P.map_apply, h1]; rfl
    · simp at hf
  · rw [P.map_apply, h2]; rfl
  · exact h3
  · rw [P.map_apply, h6]; rfl

omit q in
theorem base64_bytes {d : Bytes} {b : UInt8} (h : b ∈ Spec.base64 d) : b ≠ 32 ∧ b ≠ 13 ∧ b ≠ 10 := by
  have key : ∀ n, Spec.base64Alphabet.getD n 0 ∈ 0 :: Spec.base64Alphabet := by
    intro n
    rw [List.getD_eq_getElem?_getD]
    cases e : Spec.base64Alphabet[n]? with
    | none => simp
    | some c => simp [List.mem_of_getElem? e]
  have key2 : ∀ c ∈ 0 :: Spec.base64Alphabet, c ≠ 32 ∧ c ≠ 13 ∧ c ≠ 10 := by decide +kernel
  rw [Spec.base64, List.mem_append] at h
  rcases h with h | h
  · obtain ⟨g, -, rfl⟩ := List.mem_map.1 h
    exact key2 _ (key _)
  · rw [List.eq_of_mem_replicate h]; decide

omit q in
theorem base64_length (d : Bytes) : (Spec.base64 d).length % 4 = 0 := by
  rw [Spec.base64, List.length_append, List.length_replicate]
  omega

theorem crlf_cases {w : Bytes} {v : Unit} (h : Grammar.crlf w v) : ∃ c i, w = c :: i ∧ (c = 13 ∨ c = 10) := by
  rcases h with rfl | ⟨-, rfl⟩
  · exact ⟨13, [10], rfl, .inl rfl⟩
  · exact ⟨10, [], rfl, .inr rfl⟩

omit q in
/-- A word before a line break: it is there, or the input is rejected. -/
theorem tagNC_line {k p i : Bytes} {c : UInt8} (hc : lower c ∉ lowerAll k) :
    (∃ w p', p = w ++ p' ∧ lowerAll w = lowerAll k ∧ tagNC k (p ++ c :: i) = .ok (p' ++ c :: i) ()) ∨
    (lowerAll ((p ++ c :: i).take k.length) ≠ lowerAll k ∧ tagNC k (p ++ c :: i) = .error) := by
  induction k generalizing p with
  | nil => exact .inl ⟨[], p, rfl, rfl, rfl⟩
  | cons a k ih =>
    simp only [lowerAll, List.map_cons, List.mem_cons, not_or] at hc
    cases p with
    | nil => exact .inr ⟨by simp [lowerAll, hc.1], by simp [Imap.tagNC, Ne.symm hc.1]⟩
    | cons b p =>
      by_cases e : lower a = lower b
      · rcases ih (p := p) hc.2 with ⟨w, p', rfl, h1, h2⟩ | ⟨h1, h2⟩
        · exact .inl ⟨b :: w, p', rfl, by simp only [lowerAll, List.map_cons] at h1 ⊢; rw [h1, e], by simpa [Imap.tagNC, e] using h2⟩
        · refine .inr ⟨?_, by simpa [Imap.tagNC, e] using h2⟩
          simp only [lowerAll, List.cons_append, List.length_cons, List.take_succ_cons, List.map_cons, ne_eq, List.cons.injEq, not_and] at h1 ⊢
          exact fun _ => h1
      · refine .inr ⟨?_, by simp [Imap.tagNC, e]⟩
        simp only [lowerAll, List.cons_append, List.length_cons, List.take_succ_cons, List.map_cons, ne_eq, List.cons.injEq, not_and]
        exact fun h => absurd h.symm e

/-- The line `DONE`, or something else. -/
theorem idleDone_line {p lb rest : Bytes} (hp : NoBreak p) (hl : Grammar.crlf lb ()) :
    idleDone (p ++ lb ++ rest) = if lowerAll p = lowerAll b!"DONE" then .ok rest () else .error := by
  obtain ⟨c, i, rfl, hc⟩ := crlf_cases hl
  have hc' : lower c ∉ lowerAll b!"DONE" := by rcases hc with rfl | rfl <;> decide
  have e : p ++ c :: i ++ rest = p ++ c :: (i ++ rest) := by simp
  have e0 : ∀ x, idleDone x = (tagNC b!"DONE" x).andThen fun _ y => (crlf y).andThen fun _ z => .ok z () := by
    intro x
    rw [idleDone, value, P.bind_apply, P.bind_apply]
    cases tagNC b!"DONE" x <;> rfl
  rw [e0, e]
  rcases tagNC_line (p := p) (i := i ++ rest) hc' with ⟨w, p', rfl, h1, h2⟩ | ⟨h1, h2⟩
  · rw [h2, Res.andThen_ok]
    cases p' with
    | nil =>
      rw [List.append_nil, if_pos h1]
      have := fits_crlf.complete rest hl
      rw [List.cons_append] at this
      rw [List.nil_append, this]
      rfl
    | cons b p' =>
      rw [List.cons_append, crlf_error (hp b (by simp)), if_neg]
      · rfl
      · intro h
        have l1 := congrArg List.length h
        have l2 := congrArg List.length h1
        simp only [lowerAll, List.length_map, List.length_append, List.length_cons] at l1 l2
        omega
  · rw [h2, if_neg]
    · rfl
    · intro h
      have l := congrArg List.length h
      simp only [lowerAll, List.length_map] at l
      rw [← l, List.take_left] at h1
      exact h1 h

/-! ### After the asterisk -/

/-- How greetings go on after the asterisk. -/
def greetingHeads : List Bytes := [b!"OK ", b!"PREAUTH ", b!"BYE "]

theorem greeting_star {k i : Bytes} (hb : Begins k i) (hk : (greetingHeads.all fun e => diverges e k) = true) : greeting (42 :: 32 :: i) = .error := by
  simp only [greetingHeads, List.all_cons, List.all_nil, Bool.and_true, Bool.and_eq_true] at hk
  have h0 : condAuthKind i = .error := err_of_begins hb (by simp [hk.1, hk.2.1])
  have h1 : respCondAuth i = .error := by rw [respCondAuth, P.bind_apply, h0]; rfl
  have h2 : respCondBye i = .error := by rw [respCondBye, P.bind_apply, tagNC_diverges (diverges_of_begins hb hk.2.2)]; rfl
  have e : tag b!"* " (42 :: 32 :: i) = .ok i () := rfl
  rw [greeting, P.bind_apply, e, Res.andThen_ok, P.bind_apply, alt_cons, orElse_error h1, alt_cons, orElse_error (by rw [P.map_apply, h2]; rfl)]
  rfl

/-- PREAUTH is a word of greetings only. -/
theorem response_preauth {i : Bytes} (hb : Begins b!"PREAUTH " i) : response (42 :: 32 :: i) = .error := by
  have d : ∀ {k}, diverges k b!"PREAUTH " = true → tagNC k i = .error := fun h => tagNC_diverges (diverges_of_begins hb h)
  have hbye : respCondBye i = .error := by rw [respCondBye, P.bind_apply, d (by decide)]; rfl
  have h0 : responseDataInner i = .error := by
    refine alt_error fun p hp => ?_
    simp only [List.mem_cons, List.not_mem_nil, or_false] at hp
    rcases hp with rfl | rfl | rfl | rfl | rfl | rfl | rfl
    · have : condStateKind i = .error := err_of_begins hb (by decide +kernel)
      rw [P.map_apply, respCondState, P.bind_apply, this]; rfl
    · rw [P.map_apply, hbye]; rfl
    · have : mailboxData i = .error := err_of_begins hb (by decide +kernel)
      rw [P.map_apply, this]; rfl
    · have : messageData i = .error := err_of_begins hb (by decide +kernel)
      rw [P.map_apply, this]; rfl
    · have : capabilityData i = .error := err_of_begins hb (by decide +kernel)
      rw [P.map_apply, this]; rfl
    · rw [P.map_apply, enableData, P.bind_apply, d (by decide)]; rfl
    · refine gate_error ?_
      rw [P.map_apply, idResponse, P.bind_apply, d (by decide)]; rfl
  have e : tag b!"* " (42 :: 32 :: i) = .ok i () := rfl
  have h1 : emptyContinueReq (42 :: 32 :: i) = .error := by rw [emptyContinueReq, P.bind_apply, tag_first (by decide)]; rfl
  have h2 : continueReq (42 :: 32 :: i) = .error := by
    rw [continueReq, mapRes, continueInner, P.bind_apply, tag_first (by decide)]; rfl
  have h3 : responseData (42 :: 32 :: i) = .error := by rw [responseData, P.bind_apply, e, Res.andThen_ok, P.bind_apply, h0]; rfl
  have h4 : responseFatal (42 :: 32 :: i) = .error := by rw [responseFatal, P.bind_apply, e, Res.andThen_ok, P.bind_apply, hbye]; rfl
  have h5 : responseTagged (42 :: 32 :: i) = .error := by
    have : tagImap (42 :: 32 :: i) = .error := rfl
    rw [responseTagged, P.bind_apply, this]; rfl
  have h6 : responseDone (42 :: 32 :: i) = .error := by
    rw [responseDone, alt_cons, orElse_error h5, alt_cons, orElse_error h4]; rfl
  refine alt_error fun f hf => ?_
  simp only [List.mem_append, List.mem_cons, List.not_mem_nil, or_false] at hf
  rcases hf with hf | rfl | rfl | rfl
  · split at hf
    · simp only [List.mem_cons, List.not_mem_nil, or_false] at hf
      subst hf
      rw [P.map_apply, h1]; rfl
    · simp at hf
  · rw [P.map_apply, h2]; rfl
  · exact h3
  · rw [P.map_apply, h6]; rfl

/-- What no client sends: a line that starts with an asterisk or a plus sign and a space. -/
theorem client_symbol {b : UInt8} (hb : b = 42 ∨ b = 43) (i : Bytes) :
    command (b :: 32 :: i) = .error ∧ authenticateData (b :: 32 :: i) = .error ∧ idleDone (b :: 32 :: i) = .error := by
  have h : NoBreak [b] := by rcases hb with rfl | rfl <;> simp [NoBreak]
  refine ⟨command_first ?_, authenticateData_space (a := [b]) h, idleDone_space (a := [b]) h⟩
  rcases hb with rfl | rfl <;> rfl

/-- The same for a line with nothing but a plus sign. -/
theorem client_plus {c : UInt8} (hc : c = 13 ∨ c = 10) (i : Bytes) :
    command (43 :: c :: i) = .error ∧ authenticateData (43 :: c :: i) = .error ∧ idleDone (43 :: c :: i) = .error := by
  refine ⟨command_first rfl, ?_, ?_⟩
  · have h1 : base64 (43 :: c :: i) = .error := by
      have e1 : takeWhile isBase64Char (43 :: c :: i) = .ok (c :: i) [43] := by rcases hc with rfl | rfl <;> rfl
      have e2 : opt (alt [tag b!"==", tag b!"="]) (c :: i) = .ok (c :: i) none := by rcases hc with rfl | rfl <;> rfl
      have e3 : recognize (do let _ ← takeWhile isBase64Char; opt (alt [tag b!"==", tag b!"="])) (43 :: c :: i) = .ok (c :: i) [43] := by
        simp only [recognize, P.bind_apply, e1, Res.andThen_ok, e2]
        simp
      rw [base64, mapRes, e3]
      rfl
    rw [authenticateData, alt_cons, orElse_error (by rw [P.map_apply, P.bind_apply, h1]; rfl), alt_cons,
      orElse_error (by rw [value, P.bind_apply, P.bind_apply, tag_first (by decide)]; rfl)]
    rfl
  · rw [idleDone, value, P.bind_apply, P.bind_apply]; rfl

end Imap.Gr
