import Verif.FramingData
import Verif.FramingText
import Verif.FramingQuoted
/-
Framing of greetings and responses.
-/
set_option maxRecDepth 10000

namespace Imap

namespace Frame

open Frag Spec

variable [Q : Quirks]

omit Q in
theorem splitOnce_none {pat x : Bytes} (hp : pat ≠ []) (h : splitOnce pat x = none) : ¬ pat <:+: x := by
  induction x with
  | nil => simpa using hp
  | cons b x ih =>
    simp only [splitOnce] at h
    split at h
    · simp at h
    · next hb =>
      simp at h hb
      rw [List.infix_cons_iff, not_or]
      exact ⟨hb, ih h⟩

omit Q in
theorem splitOnce_some {pat x l r : Bytes} (hp : pat ≠ []) (h : splitOnce pat x = some (l, r)) : x = l ++ pat ++ r ∧ ¬ pat <:+: l := by
  induction x generalizing l with
  | nil => simp [splitOnce, hp] at h
  | cons b x ih =>
    simp only [splitOnce] at h
    split at h
    · next hb =>
      simp at h
      obtain ⟨rfl, rfl⟩ := h
      simp only [List.isPrefixOf_iff_prefix] at hb
      obtain ⟨y, hy⟩ := hb
      rw [← hy]
      simpa using hp
    · next hb =>
      simp at h hb
      obtain ⟨l', hs, rfl⟩ := h
      obtain ⟨rfl, h2⟩ := ih hs
      refine ⟨by simp, ?_⟩
      rw [List.infix_cons_iff, not_or]
      refine ⟨fun h => hb ?_, h2⟩
      refine h.trans ⟨pat ++ r, by simp⟩

omit Q in
theorem lf_infix {l : Bytes} : ¬ b!"\n" <:+: l ↔ (10 : UInt8) ∉ l := by
  constructor
  · intro h hm
    obtain ⟨s, t, rfl⟩ := List.append_of_mem hm
    exact h ⟨s, t, by simp⟩
  · rintro h ⟨s, t, rfl⟩
    simp at h

/-- The base64 alternative of continuation requests. -/
theorem continueBase64_ok {x r d : Bytes} (h : continueBase64 x = .ok r d) : ∃ w, x = w ++ r ∧ (10 : UInt8) ∉ w := by
  unfold continueBase64 at h
  split at h
  · obtain ⟨v, h, -⟩ := exists_of_mapRes h
    simp only [takeUntil] at h
    split at h <;> simp at h
    next l r' e =>
      obtain ⟨rfl, rfl⟩ := h
      obtain ⟨rfl, hl⟩ := splitOnce_some (by simp) e
      exact ⟨l, by simp, lf_infix.1 hl⟩
  · obtain ⟨v, h, hd⟩ := exists_of_mapRes h
    simp only [takeUntil] at h
    split at h <;> simp at h
    next l r' e =>
      obtain ⟨rfl, rfl⟩ := h
      obtain ⟨rfl, -⟩ := splitOnce_some (by simp) e
      refine ⟨l, by simp, fun hm => ?_⟩
      rw [← b64_encode_decode _ _ hd] at hm
      have := List.all_eq_true.1 (b64Encode_text d) _ hm
      revert this
      decide

theorem continueBase64_inc {x : Bytes} (h : continueBase64 x = .incomplete) :
    (10 : UInt8) ∉ x ∨ (Quirks.crlfRelaxed = false ∧ ¬ b!"\r\n" <:+: x) := by
  have key : ∀ {α : Type} {p : P Bytes} {f : Bytes → Option α}, mapRes p f x = .incomplete → p x = .incomplete := by
    intro α p f h
    unfold mapRes at h
    split at h <;> try simp at h
    · split at h <;> simp at h
    · assumption
  unfold continueBase64 at h
  split at h
  · have := key h
    simp only [takeUntil] at this
    split at this <;> simp at this
    next e => exact .inl (lf_infix.1 (splitOnce_none (by simp) e))
  · next hq =>
    have := key h
    simp only [takeUntil] at this
    split at this <;> simp at this
    next e => exact .inr ⟨by simpa using hq, splitOnce_none (by simp) e⟩

theorem continueBase64_fail {x : Bytes} {k : Fail} : continueBase64 x ≠ .failure k := by
  intro h
  have key : ∀ {α : Type} {pat : Bytes} {f : Bytes → Option α}, mapRes (takeUntil pat) f x ≠ .failure k := by
    intro α pat f h
    unfold mapRes takeUntil at h
    split at h <;> try simp at h
    · split at h <;> simp at h
    · next e => split at e <;> simp at e
  unfold continueBase64 at h
  split at h <;> exact key h

/-- What is special about continuation requests: without the quirk, a line break without CR is not seen. -/
structure Cn (p : P α) (E : Bytes → Prop) : Prop where
  ok : ∀ {x r v}, p x = .ok r v → ∃ w, x = w ++ r ∧ IsLine w
  inc : ∀ {x}, p x = .incomplete → (10 : UInt8) ∉ x ∨ E x
  lit : ∀ {x t n m}, p x ≠ .failure (.literal t n m)

theorem cn_continueReq : Cn continueReq fun x => Quirks.crlfRelaxed = false ∧ OpenContinuation x := by
  have htag : Fl (tag b!"+ ") := by flat
  have hrt : Fl (ContinueEither.basic <$> respText) := by flat
  have hok : ∀ {x r v}, (alt [ContinueEither.base64 <$> continueBase64, .basic <$> respText] : P ContinueEither) x = .ok r v →
      ∃ w, x = w ++ r ∧ (10 : UInt8) ∉ w := by
    intro x r v h
    simp only [alt, orElse, P.fail] at h
    split at h
    · next e1 =>
      split at h
      · simp at h
      · exact hrt.ok h
    · simp only [P.map_apply] at h
      obtain ⟨r1, v1, e1, h'⟩ := Res.andThen_eq_ok.1 h
      simp at h'
      obtain ⟨rfl, rfl⟩ := h'
      exact continueBase64_ok e1
  have hinc : ∀ {x}, (alt [ContinueEither.base64 <$> continueBase64, .basic <$> respText] : P ContinueEither) x = .incomplete →
      (10 : UInt8) ∉ x ∨ (Quirks.crlfRelaxed = false ∧ ¬ b!"\r\n" <:+: x) := by
    intro x h
    simp only [alt, orElse, P.fail] at h
    split at h
    · split at h
      · simp at h
      · exact .inl (hrt.inc h)
    · simp only [P.map_apply] at h
      rcases andThen_inc h with h | ⟨r1, v1, e1, h⟩
      · exact continueBase64_inc h
      · simp at h
  have hlit : ∀ {x t n m}, (alt [ContinueEither.base64 <$> continueBase64, .basic <$> respText] : P ContinueEither) x ≠
      .failure (.literal t n m) := by
    intro x t n m h
    simp only [alt, orElse, P.fail] at h
    split at h
    · split at h
      · simp at h
      · exact hrt.lit h
    · simp only [P.map_apply] at h
      rcases andThen_fail h with h | ⟨r1, v1, e1, h⟩
      · exact continueBase64_fail h
      · simp at h
  constructor
  · intro x r v h
    unfold continueReq at h
    obtain ⟨v', h, -⟩ := exists_of_mapRes h
    unfold continueInner at h
    simp only [P.bind_apply] at h
    obtain ⟨r1, v1, e1, h1⟩ := Res.andThen_eq_ok.1 h
    obtain ⟨r2, v2, e2, h2⟩ := Res.andThen_eq_ok.1 h1
    obtain ⟨r3, v3, e3, h3⟩ := Res.andThen_eq_ok.1 h2
    simp [P.pure_apply] at h3
    obtain ⟨rfl, rfl⟩ := h3
    clear h h1 h2
    obtain ⟨w1, rfl, hw1⟩ := htag.ok e1
    obtain ⟨w2, rfl, hw2⟩ := hok e2
    obtain ⟨c, rfl, hc⟩ := crlf_ok e3
    exact ⟨w1 ++ w2 ++ c ++ b!"\n", by simp, _, rfl, by simp [hw1, hw2, hc]⟩
  · intro x h
    have h : continueInner x = .incomplete := by
      unfold continueReq mapRes at h
      split at h <;> try simp at h
      · split at h <;> simp at h
      · assumption
    unfold continueInner at h
    simp only [P.bind_apply] at h
    rcases andThen_inc h with h | ⟨r1, v1, e1, h1⟩
    · exact .inl (htag.inc h)
    · clear h
      obtain rfl := exists_of_tag e1
      rcases andThen_inc h1 with h | ⟨r2, v2, e2, h2⟩
      · rcases hinc h with h | ⟨hq, h⟩
        · exact .inl (by simp [h])
        · exact .inr ⟨hq, r1, rfl, h⟩
      · clear h1 e1
        obtain ⟨w2, rfl, hw2⟩ := hok e2
        rcases andThen_inc h2 with h | ⟨r3, v3, e3, h3⟩
        · exact .inl (by simp [hw2, crlf_inc h])
        · simp [P.pure_apply] at h3
  · intro x t n m h
    have h : continueInner x = .failure (.literal t n m) := by
      unfold continueReq mapRes at h
      split at h <;> try simp at h
      · split at h <;> simp at h
      · subst h; assumption
    unfold continueInner at h
    simp only [P.bind_apply] at h
    rcases andThen_fail h with h | ⟨r1, v1, e1, h1⟩
    · exact htag.lit h
    · rcases andThen_fail h1 with h | ⟨r2, v2, e2, h2⟩
      · exact hlit h
      · rcases andThen_fail h2 with h | ⟨r3, v3, e3, h3⟩
        · exact crlf_lit h
        · simp [P.pure_apply] at h3

/-- The parts of responses after `* `: they are data, or stay within the line. -/
structure Mid (p : P Response) : Prop where
  ok : ∀ {x r v}, p x = .ok r v → ∃ w, x = w ++ r ∧
    ((∃ d, v = .data d) ∧ Ready .out (start.run w) r ∨ (∃ s, v = .status s) ∧ (10 : UInt8) ∉ w)
  inc : ∀ {x}, p x = .incomplete → Waiting (start.run x)
  lit : ∀ {x t n m}, p x = .failure (.literal t n m) → start.run x = .ann ⟨m, n⟩

omit Q in
theorem ready_begin (x : Bytes) : Ready .out start x := Or.inl ⟨.other, rfl, fun _ => rfl⟩

omit Q in
theorem waiting_noLF {x : Bytes} (h : (10 : UInt8) ∉ x) : Waiting (start.run x) := .inl ⟨_, _, run_noLF _ _ h⟩

omit Q in
theorem Mid.data {α : Type} {p : P α} {f : α → Data} (h : Fr .out .out p) : Mid ((fun v => Response.data (f v)) <$> p) := by
  have h' : Fr .out .out ((fun v => Response.data (f v)) <$> p) := Fr.mapf h
  constructor
  · intro x r v e
    obtain ⟨w, rfl, hw⟩ := h'.ok (ready_begin _) e
    refine ⟨w, rfl, .inl ⟨?_, hw⟩⟩
    simp only [P.map_apply] at e
    obtain ⟨r1, v1, e1, e2⟩ := Res.andThen_eq_ok.1 e
    simp at e2
    exact ⟨_, e2.2.symm⟩
  · intro x e; exact h'.inc (ready_begin _) e
  · intro x t n m e; exact h'.lit (ready_begin _) e

omit Q in
theorem Mid.status {α : Type} {p : P α} {f : α → Status} (h : Fl p) : Mid ((fun v => Response.status (f v)) <$> p) := by
  have h' : Fl ((fun v => Response.status (f v)) <$> p) := Fl.mapf h
  constructor
  · intro x r v e
    obtain ⟨w, rfl, hw⟩ := h'.ok e
    refine ⟨w, rfl, .inr ⟨?_, hw⟩⟩
    simp only [P.map_apply] at e
    obtain ⟨r1, v1, e1, e2⟩ := Res.andThen_eq_ok.1 e
    simp at e2
    exact ⟨_, e2.2.symm⟩
  · intro x e; exact waiting_noLF (h'.inc e)
  · intro x t n m e; exact absurd e h'.lit

omit Q in
theorem Mid.orElse {p p' : P Response} (hp : Mid p) (hp' : Mid p') : Mid (Imap.orElse p p') := by
  constructor
  · intro x r v h
    unfold Imap.orElse at h
    split at h
    · exact hp'.ok h
    · exact hp.ok h
  · intro x h
    unfold Imap.orElse at h
    split at h
    · exact hp'.inc h
    · exact hp.inc h
  · intro x t n m h
    unfold Imap.orElse at h
    split at h
    · exact hp'.lit h
    · exact hp.lit h

omit Q in
theorem Mid.gate {b : Bool} {p : P Response} (h : Mid p) : Mid (gate b p) := by
  cases b
  · constructor <;> intros <;> simp_all
  · rw [gate_true]; exact h

omit Q in
theorem Mid.failR : Mid (P.fail : P Response) := by constructor <;> intros <;> simp_all [P.fail]

theorem mid_inner : Mid responseDataInner := by
  unfold responseDataInner
  exact Mid.orElse (Mid.status Flat.use) (Mid.orElse (Mid.status Flat.use) (Mid.orElse (Mid.data (f := id) Framed.use)
    (Mid.orElse (Mid.data (f := id) Framed.use) (Mid.orElse (Mid.data Framed.use) (Mid.orElse (Mid.data (f := id) Framed.use)
    (Mid.orElse (Mid.data Framed.use).gate Mid.failR))))))

/-- Whole responses. -/
structure Sv (p : P Response) : Prop where
  ok : ∀ {x r v}, p x = .ok r v → ∃ w, x = w ++ r ∧ ((∃ d, v = .data d) ∧ start.run w = .ended ∨ (∀ d, v ≠ .data d) ∧ IsLine w)
  inc : ∀ {x}, p x = .incomplete → Waiting (start.run x) ∨ (Quirks.crlfRelaxed = false ∧ OpenContinuation x)
  lit : ∀ {x t n m}, p x = .failure (.literal t n m) → start.run x = .ann ⟨m, n⟩

theorem sv_responseData : Sv responseData := by
  have htag : Fl (tag b!"* ") := by flat
  have hs : start.run b!"* " = start := by decide
  constructor
  · intro x r v h
    unfold responseData at h
    simp only [P.bind_apply] at h
    obtain ⟨r1, v1, e1, h1⟩ := Res.andThen_eq_ok.1 h
    obtain ⟨r2, v2, e2, h2⟩ := Res.andThen_eq_ok.1 h1
    obtain ⟨r3, v3, e3, h3⟩ := Res.andThen_eq_ok.1 h2
    simp [P.pure_apply] at h3
    obtain ⟨rfl, rfl⟩ := h3
    clear h h1 h2
    obtain rfl := exists_of_tag e1
    clear e1
    obtain ⟨w, rfl, ⟨hd, hw⟩ | ⟨⟨s, rfl⟩, hw⟩⟩ := mid_inner.ok e2
    · obtain ⟨w', rfl, hw'⟩ := tri_crlf_end.ok hw e3
      exact ⟨b!"* " ++ w ++ w', by simp, .inl ⟨hd, by rw [run_append, run_append, hs]; exact hw'⟩⟩
    · obtain ⟨c, rfl, hc⟩ := crlf_ok e3
      exact ⟨b!"* " ++ w ++ c ++ b!"\n", by simp, .inr ⟨by simp, _, rfl, by simp [hw, hc]⟩⟩
  · intro x h
    left
    unfold responseData at h
    simp only [P.bind_apply] at h
    rcases andThen_inc h with h | ⟨r1, v1, e1, h1⟩
    · exact waiting_noLF (htag.inc h)
    · clear h
      obtain rfl := exists_of_tag e1
      clear e1
      rw [run_append, hs]
      rcases andThen_inc h1 with h | ⟨r2, v2, e2, h2⟩
      · exact mid_inner.inc h
      · clear h1
        rcases andThen_inc h2 with h | ⟨r3, v3, e3, h3⟩
        · obtain ⟨w, rfl, ⟨hd, hw⟩ | ⟨⟨s, rfl⟩, hw⟩⟩ := mid_inner.ok e2
          · rw [run_append]; exact tri_crlf_end.inc hw h
          · exact waiting_noLF (by simp [hw, crlf_inc h])
        · simp [P.pure_apply] at h3
  · intro x t n m h
    unfold responseData at h
    simp only [P.bind_apply] at h
    rcases andThen_fail h with h | ⟨r1, v1, e1, h1⟩
    · exact absurd h htag.lit
    · clear h
      obtain rfl := exists_of_tag e1
      clear e1
      rw [run_append, hs]
      rcases andThen_fail h1 with h | ⟨r2, v2, e2, h2⟩
      · exact mid_inner.lit h
      · rcases andThen_fail h2 with h | ⟨r3, v3, e3, h3⟩
        · exact absurd h crlf_lit
        · simp [P.pure_apply] at h3

theorem Sv.orElse {p p' : P Response} (hp : Sv p) (hp' : Sv p') : Sv (Imap.orElse p p') := by
  constructor
  · intro x r v h
    unfold Imap.orElse at h
    split at h
    · exact hp'.ok h
    · exact hp.ok h
  · intro x h
    unfold Imap.orElse at h
    split at h
    · exact hp'.inc h
    · exact hp.inc h
  · intro x t n m h
    unfold Imap.orElse at h
    split at h
    · exact hp'.lit h
    · exact hp.lit h

theorem Sv.failR : Sv (P.fail : P Response) := by constructor <;> intros <;> simp_all [P.fail]

theorem Sv.mapf {α : Type} {p : P α} {f : α → Response} (hf : ∀ v d, f v ≠ .data d)
    (h : Cn p fun x => Quirks.crlfRelaxed = false ∧ OpenContinuation x) : Sv (f <$> p) := by
  constructor
  · intro x r v e
    simp only [P.map_apply] at e
    obtain ⟨r1, v1, e1, e2⟩ := Res.andThen_eq_ok.1 e
    simp at e2
    obtain ⟨rfl, rfl⟩ := e2
    obtain ⟨w, rfl, hw⟩ := h.ok e1
    exact ⟨w, rfl, .inr ⟨hf v1, hw⟩⟩
  · intro x e
    simp only [P.map_apply] at e
    rcases andThen_inc e with e | ⟨r1, v1, e1, e⟩
    · rcases h.inc e with h | h
      · exact .inl (waiting_noLF h)
      · exact .inr h
    · simp at e
  · intro x t n m e
    simp only [P.map_apply] at e
    rcases andThen_fail e with e | ⟨r1, v1, e1, e⟩
    · exact absurd e h.lit
    · simp at e

omit Q in
theorem Ln.cn {α : Type} {p : P α} {E : Bytes → Prop} (h : Ln p) : Cn p E := ⟨h.ok, fun e => .inl (h.inc e), h.lit⟩

theorem sv_response : Sv response := by
  have h1 : Sv (Response.continue_ <$> emptyContinueReq) := Sv.mapf (by simp) ln_emptyContinueReq.cn
  have h2 : Sv (Response.continue_ <$> continueReq) := Sv.mapf (by simp) cn_continueReq
  have h3 : Sv (Response.status <$> responseDone) := Sv.mapf (by simp) ln_done.cn
  have h := Sv.orElse h2 (Sv.orElse sv_responseData (Sv.orElse h3 Sv.failR))
  unfold response
  split
  · exact Sv.orElse h1 h
  · exact h

end Frame

end Imap
