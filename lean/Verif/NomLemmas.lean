import Verif.Nom
import Verif.FragSpec
/-
Compositional facts about the parser combinators:

* evaluation lemmas for input of the form `bytes ++ rest` (round trips),
* `Nice`: outcomes other than "incomplete" and "literal found" are not affected by appended input, the remaining
  input is a suffix of the input, and "literal found" is only reported directly after a literal announcement; after it, the
  input stays incomplete until the announced number of bytes is there.
-/
namespace Imap

variable {α β γ : Type}

/-! ### Evaluation -/

@[simp] theorem Res.andThen_ok (r : Bytes) (v : α) (f : α → P β) : (Res.ok r v).andThen f = f v r := rfl
@[simp] theorem Res.andThen_incomplete (f : α → P β) : (Res.incomplete : Res α).andThen f = .incomplete := rfl
@[simp] theorem Res.andThen_error (f : α → P β) : (Res.error : Res α).andThen f = .error := rfl
@[simp] theorem Res.andThen_failure (k : Fail) (f : α → P β) :
    (Res.failure k : Res α).andThen f = .failure k := rfl

@[simp] theorem P.pure_apply (a : α) (i : Bytes) : (pure a : P α) i = .ok i a := rfl
@[simp] theorem P.bind_apply (p : P α) (f : α → P β) (i : Bytes) : (p >>= f) i = (p i).andThen f := rfl
@[simp] theorem P.map_apply (p : P α) (f : α → β) (i : Bytes) :
    (f <$> p) i = (p i).andThen fun v i => .ok i (f v) := rfl

theorem Res.andThen_eq_ok {r : Res α} {f : α → P β} {rem : Bytes} {w : β} :
    r.andThen f = .ok rem w ↔ ∃ i v, r = .ok i v ∧ f v i = .ok rem w := by
  cases r <;> simp [and_assoc]

theorem Res.andThen_eq_error {r : Res α} {f : α → P β} :
    r.andThen f = .error ↔ r = .error ∨ ∃ i v, r = .ok i v ∧ f v i = .error := by
  cases r <;> simp [and_assoc]

theorem Res.andThen_eq_failure {r : Res α} {f : α → P β} {k : Fail} :
    r.andThen f = .failure k ↔ r = .failure k ∨ ∃ i v, r = .ok i v ∧ f v i = .failure k := by
  cases r <;> simp [and_assoc]

/-- The input continues with a byte outside of `f`. -/
def Stops (f : UInt8 → Bool) : Bytes → Bool
  | [] => false
  | b :: _ => !f b

@[simp] theorem Stops_cons (f : UInt8 → Bool) (b : UInt8) (bs : Bytes) : Stops f (b :: bs) = !f b := rfl
@[simp] theorem Stops_nil (f : UInt8 → Bool) : Stops f [] = false := rfl

theorem exists_of_stops {f : UInt8 → Bool} {r : Bytes} (h : Stops f r = true) : ∃ b bs, r = b :: bs ∧ f b = false := by
  cases r with
  | nil => simp at h
  | cons b bs => exact ⟨b, bs, rfl, by simpa using h⟩

@[simp] theorem tag_append (t r : Bytes) : tag t (t ++ r) = .ok r () := by
  induction t with
  | nil => simp [tag]
  | cons b t ih => simp [tag, ih]

@[simp] theorem tagNC_append (t r : Bytes) : tagNC t (t ++ r) = .ok r () := by
  induction t with
  | nil => simp [tagNC]
  | cons b t ih => simp [tagNC, ih]

theorem takeWhile_append {f : UInt8 → Bool} {v r : Bytes} (hv : v.all f = true) (hr : Stops f r = true) :
    takeWhile f (v ++ r) = .ok r v := by
  induction v with
  | nil =>
    obtain ⟨b, bs, rfl, hb⟩ := exists_of_stops hr
    simp [takeWhile, hb]
  | cons b v ih =>
    simp only [List.all_cons, Bool.and_eq_true] at hv
    simp [takeWhile, hv.1, ih hv.2]

theorem takeWhile1_append {f : UInt8 → Bool} {v r : Bytes} (hn : v ≠ []) (hv : v.all f = true)
    (hr : Stops f r = true) : takeWhile1 f (v ++ r) = .ok r v := by
  cases v with
  | nil => exact absurd rfl hn
  | cons b v =>
    have := takeWhile_append hv hr
    simp only [List.all_cons, Bool.and_eq_true] at hv
    simp only [takeWhile1, List.cons_append, hv.1, if_true]
    exact this

theorem take_append {n : Nat} {v r : Bytes} (h : v.length = n) : take n (v ++ r) = .ok r v := by
  subst h
  simp [take]

@[simp] theorem alt_nil (i : Bytes) : alt ([] : List (P α)) i = .error := rfl
@[simp] theorem alt_cons (p : P α) (ps : List (P α)) : alt (p :: ps) = orElse p (alt ps) := rfl
theorem gate_eq (b : Bool) (p : P α) : gate b p = if b then p else P.fail := by
  funext i
  unfold gate
  cases b <;> cases h : p i <;> simp [h, P.fail]
@[simp] theorem gate_true (p : P α) : gate true p = p := by rw [gate_eq]; rfl
theorem gate_on {b : Bool} (h : b = true) (p : P α) : gate b p = p := by subst h; simp
@[simp] theorem gate_false (p : P α) (i : Bytes) : gate false p i = .error := by rw [gate_eq]; rfl
theorem gate_error {b : Bool} {p : P α} {i : Bytes} (h : p i = .error) : gate b p i = .error := by cases b <;> simp [h]
theorem gate_ok {b : Bool} {p : P α} {i r : Bytes} {v : α} (h : gate b p i = .ok r v) : b = true ∧ p i = .ok r v := by
  cases b
  · simp at h
  · exact ⟨rfl, by simpa using h⟩

/-- An alternative whose feature is off is as good as left out. -/
theorem alt_gate_off (ps qs : List (P α)) (p : P α) : alt (ps ++ gate false p :: qs) = alt (ps ++ qs) := by
  induction ps with
  | nil =>
    funext i
    show orElse (gate false p) (alt qs) i = alt qs i
    simp [orElse]
  | cons q ps ih => exact congrArg (orElse q) ih

@[simp] theorem fail_apply (i : Bytes) : (P.fail : P α) i = .error := rfl

theorem orElse_ok {p q : P α} {i r : Bytes} {v : α} (h : p i = .ok r v) : orElse p q i = .ok r v := by
  simp [orElse, h]

theorem orElse_error {p q : P α} {i : Bytes} (h : p i = .error) : orElse p q i = q i := by
  simp [orElse, h]

theorem opt_ok {p : P α} {i r : Bytes} {v : α} (h : p i = .ok r v) : opt p i = .ok r (some v) := by
  simp [opt, h]

theorem opt_error {p : P α} {i : Bytes} (h : p i = .error) : opt p i = .ok i none := by
  simp [opt, h]

theorem mapRes_ok {p : P α} {f : α → Option β} {i r : Bytes} {v : α} {w : β} (h : p i = .ok r v)
    (hf : f v = some w) : mapRes p f i = .ok r w := by
  simp [mapRes, h, hf]

theorem many0_stop {p : P α} {i : Bytes} (h : p i = .error) : many0 p i = .ok i [] := by
  rw [many0, h]

theorem many0_step {p : P α} {i r : Bytes} {v : α} (h : p i = .ok r v) (hl : r.length < i.length) :
    many0 p i = (many0 p r).andThen fun vs i => .ok i (v :: vs) := by
  rw [many0, h]
  simp [hl]

/-- `many0` parses a concatenation of elements, each followed by input of the kind `F`. -/
theorem many0_flatMap {p : P α} {enc : α → Bytes} {F : Bytes → Prop} {rest : Bytes}
    (vs : List α) (hp : ∀ v ∈ vs, ∀ r, F r → p (enc v ++ r) = .ok r v)
    (hne : ∀ v ∈ vs, enc v ≠ []) (hF : ∀ v ∈ vs, ∀ r, F (enc v ++ r)) (hrest : F rest) (hstop : p rest = .error) :
    many0 p (vs.flatMap enc ++ rest) = .ok rest vs := by
  have key : ∀ vs : List α, (∀ v ∈ vs, ∀ r, F r → p (enc v ++ r) = .ok r v) → (∀ v ∈ vs, enc v ≠ []) →
      (∀ v ∈ vs, ∀ r, F (enc v ++ r)) → F (vs.flatMap enc ++ rest) ∧ many0 p (vs.flatMap enc ++ rest) = .ok rest vs := by
    intro vs
    induction vs with
    | nil => intro _ _ _; exact ⟨by simpa using hrest, by simpa using many0_stop hstop⟩
    | cons v vs ih =>
      intro hp hne hF
      have ih := ih (fun w hw => hp w (List.mem_cons_of_mem _ hw)) (fun w hw => hne w (List.mem_cons_of_mem _ hw))
        (fun w hw => hF w (List.mem_cons_of_mem _ hw))
      rw [List.flatMap_cons, List.append_assoc]
      refine ⟨hF v (by simp) _, ?_⟩
      rw [many0_step (hp v (by simp) _ ih.1), ih.2]
      · simp
      · have := hne v (by simp)
        have : 0 < (enc v).length := List.length_pos_iff.2 this
        simp [this]
  exact (key vs hp hne hF).2

/-! ### Announcements -/

/-- `x` ends with the literal announcement `{n}` or `{n+}` and a line ending (CRLF; or LF with
quirk_crlf_relaxed). -/
def EndsAnnouncing [q : Quirks] (x : Bytes) (n : Nat) (m : Mode) : Prop :=
  ∃ pre digits ending,
    x = pre ++ b!"{" ++ digits ++ Frag.modeBytes m ++ b!"}" ++ Frag.endingBytes ending ∧
    (q.crlfRelaxed = false → ending = .crlf) ∧
    digits ≠ [] ∧ (∀ d ∈ digits, isDigit d) ∧ decVal digits = n ∧ n < 2^32

theorem EndsAnnouncing.prepend [Quirks] {x c : Bytes} {n : Nat} {m : Mode} (h : EndsAnnouncing x n m) :
    EndsAnnouncing (c ++ x) n m := by
  obtain ⟨pre, ds, e, rfl, h⟩ := h
  exact ⟨c ++ pre, ds, e, by simp, h⟩

/-! ### Niceness -/

/-- See the header. -/
class Nice [Quirks] (p : P α) : Prop where
  ok : ∀ {x r v}, p x = .ok r v → ∀ y, p (x ++ y) = .ok (r ++ y) v
  err : ∀ {x}, p x = .error → ∀ y, p (x ++ y) = .error
  fail : ∀ {x k}, p x = .failure k → (∀ t n m, k ≠ .literal t n m) → ∀ y, p (x ++ y) = .failure k
  suf : ∀ {x r v}, p x = .ok r v → ∃ c, x = c ++ r
  lit : ∀ {x t n m}, p x = .failure (.literal t n m) → t = none ∧ EndsAnnouncing x n m
  more : ∀ {x t n m}, p x = .failure (.literal t n m) → ∀ d, d ≠ [] → d.length < n → p (x ++ d) = .incomplete

variable [Quirks]

theorem Nice.len {p : P α} (h : Nice p) {x r : Bytes} {v : α} (e : p x = .ok r v) : r.length ≤ x.length := by
  obtain ⟨c, rfl⟩ := h.suf e
  simp

theorem Nice.pure (a : α) : Nice (pure a : P α) where
  ok := by simp
  err := by simp
  fail := by simp
  suf := by
    intro x r v h
    simp at h
    exact ⟨[], by simp [h.1]⟩
  lit := by simp
  more := by simp

theorem Nice.gate {b : Bool} {p : P α} (h : Nice p) : Nice (gate b p) := by
  cases b
  · exact { ok := by simp, err := by simp, fail := by simp, suf := by simp, lit := by simp, more := by simp }
  · rw [gate_true]; exact h

theorem Nice.failP : Nice (P.fail : P α) where
  ok := by simp
  err := by simp
  fail := by simp
  suf := by simp
  lit := by simp
  more := by simp

/-- The parser that always fails unrecoverably. -/
theorem Nice.failure {k : Fail} (hk : ∀ t n m, k ≠ .literal t n m) : Nice (fun _ => .failure k : P α) where
  ok := by simp
  err := by simp
  fail := by simp
  suf := by simp
  lit := by
    intro x t n m h
    simp at h
    exact absurd h (hk t n m)
  more := by
    intro x t n m h
    simp at h
    exact absurd h (hk t n m)

theorem Nice.bind {p : P α} {f : α → P β} (hp : Nice p) (hf : ∀ v, Nice (f v)) : Nice (p >>= f) where
  ok := by
    intro x r v h y
    simp only [P.bind_apply] at *
    obtain ⟨i, w, h1, h2⟩ := Res.andThen_eq_ok.1 h
    rw [hp.ok h1 y]
    exact (hf w).ok h2 y
  err := by
    intro x h y
    simp only [P.bind_apply] at *
    rcases Res.andThen_eq_error.1 h with h1 | ⟨i, w, h1, h2⟩
    · rw [hp.err h1 y]; rfl
    · rw [hp.ok h1 y]
      exact (hf w).err h2 y
  fail := by
    intro x k h hk y
    simp only [P.bind_apply] at *
    rcases Res.andThen_eq_failure.1 h with h1 | ⟨i, w, h1, h2⟩
    · rw [hp.fail h1 hk y]; rfl
    · rw [hp.ok h1 y]
      exact (hf w).fail h2 hk y
  suf := by
    intro x r v h
    simp only [P.bind_apply] at *
    obtain ⟨i, w, h1, h2⟩ := Res.andThen_eq_ok.1 h
    obtain ⟨c, rfl⟩ := hp.suf h1
    obtain ⟨d, rfl⟩ := (hf w).suf h2
    exact ⟨c ++ d, by simp⟩
  lit := by
    intro x t n m h
    simp only [P.bind_apply] at *
    rcases Res.andThen_eq_failure.1 h with h1 | ⟨i, w, h1, h2⟩
    · exact hp.lit h1
    · obtain ⟨c, rfl⟩ := hp.suf h1
      exact ⟨((hf w).lit h2).1, ((hf w).lit h2).2.prepend⟩
  more := by
    intro x t n m h d hd hl
    simp only [P.bind_apply] at *
    rcases Res.andThen_eq_failure.1 h with h1 | ⟨i, w, h1, h2⟩
    · rw [hp.more h1 d hd hl]; rfl
    · rw [hp.ok h1 d]
      exact (hf w).more h2 d hd hl

theorem Nice.map {p : P α} {f : α → β} (hp : Nice p) : Nice (f <$> p) :=
  Nice.bind (f := fun v => (Pure.pure (f v) : P β)) hp fun v => Nice.pure (f v)

theorem Nice.value {p : P α} {v : β} (hp : Nice p) : Nice (value v p) := hp.bind fun _ => Nice.pure v

theorem Nice.orElse {p q : P α} (hp : Nice p) (hq : Nice q) : Nice (orElse p q) where
  ok := by
    intro x r v h y
    unfold Imap.orElse at *
    cases e : p x <;> rw [e] at h <;> simp at h
    · rw [hp.ok e y]; simp [h]
    · rw [hp.err e y]; exact hq.ok h y
  err := by
    intro x h y
    unfold Imap.orElse at *
    cases e : p x <;> rw [e] at h <;> simp at h
    · rw [hp.err e y]; exact hq.err h y
  fail := by
    intro x k h hk y
    unfold Imap.orElse at *
    cases e : p x <;> rw [e] at h <;> simp at h
    · rw [hp.err e y]; exact hq.fail h hk y
    · rw [hp.fail e (by rw [h]; exact hk) y]; simp [h]
  suf := by
    intro x r v h
    unfold Imap.orElse at *
    cases e : p x <;> rw [e] at h <;> simp at h
    · obtain ⟨rfl, rfl⟩ := h; exact hp.suf e
    · exact hq.suf h
  lit := by
    intro x t n m h
    unfold Imap.orElse at *
    cases e : p x <;> rw [e] at h <;> simp at h
    · exact hq.lit h
    · exact hp.lit (by rw [e, h])
  more := by
    intro x t n m h d hd hl
    unfold Imap.orElse at *
    cases e : p x <;> rw [e] at h <;> simp at h
    · rw [hp.err e d]; exact hq.more h d hd hl
    · subst h
      rw [hp.more e d hd hl]

theorem Nice.alt {ps : List (P α)} (h : ∀ p ∈ ps, Nice p) : Nice (alt ps) := by
  induction ps with
  | nil => exact Nice.failP
  | cons p ps ih =>
    exact Nice.orElse (h p (by simp)) (ih fun q hq => h q (by simp [hq]))

theorem Nice.opt {p : P α} (hp : Nice p) : Nice (opt p) where
  ok := by
    intro x r v h y
    unfold Imap.opt at *
    cases e : p x <;> rw [e] at h <;> simp at h
    · rw [hp.ok e y]; simp [h]
    · rw [hp.err e y]; simp [h]
  err := by
    intro x h y
    unfold Imap.opt at *
    cases e : p x <;> rw [e] at h <;> simp at h
  fail := by
    intro x k h hk y
    unfold Imap.opt at *
    cases e : p x <;> rw [e] at h <;> simp at h
    rw [hp.fail e (by rw [h]; exact hk) y]; simp [h]
  suf := by
    intro x r v h
    unfold Imap.opt at *
    cases e : p x <;> rw [e] at h <;> simp at h
    · obtain ⟨rfl, rfl⟩ := h; exact hp.suf e
    · exact ⟨[], by simp [h.1]⟩
  lit := by
    intro x t n m h
    unfold Imap.opt at *
    cases e : p x <;> rw [e] at h <;> simp at h
    exact hp.lit (by rw [e, h])
  more := by
    intro x t n m h d hd hl
    unfold Imap.opt at *
    cases e : p x <;> rw [e] at h <;> simp at h
    subst h
    rw [hp.more e d hd hl]

theorem Nice.mapRes {p : P α} {f : α → Option β} (hp : Nice p) : Nice (mapRes p f) where
  ok := by
    intro x r v h y
    unfold Imap.mapRes at *
    cases e : p x <;> rw [e] at h <;> simp at h
    rw [hp.ok e y]
    split at h <;> simp_all
  err := by
    intro x h y
    unfold Imap.mapRes at *
    cases e : p x <;> rw [e] at h <;> simp at h
    · rw [hp.ok e y]
      split at h <;> simp_all
    · rw [hp.err e y]
  fail := by
    intro x k h hk y
    unfold Imap.mapRes at *
    cases e : p x <;> rw [e] at h <;> simp at h
    · split at h <;> simp_all
    · rw [hp.fail e (by rw [h]; exact hk) y]; simp [h]
  suf := by
    intro x r v h
    unfold Imap.mapRes at *
    cases e : p x <;> rw [e] at h <;> simp at h
    split at h <;> simp at h
    obtain ⟨rfl, rfl⟩ := h
    exact hp.suf e
  lit := by
    intro x t n m h
    unfold Imap.mapRes at *
    cases e : p x <;> rw [e] at h <;> simp at h
    · split at h <;> simp at h
    · exact hp.lit (by rw [e, h])
  more := by
    intro x t n m h d hd hl
    unfold Imap.mapRes at *
    cases e : p x <;> rw [e] at h <;> simp at h
    · split at h <;> simp at h
    · subst h
      rw [hp.more e d hd hl]

theorem Nice.peek {p : P α} (hp : Nice p) : Nice (peek p) where
  ok := by
    intro x r v h y
    simp only [Imap.peek] at *
    obtain ⟨i, w, h1, h2⟩ := Res.andThen_eq_ok.1 h
    rw [hp.ok h1 y]
    simp_all
  err := by
    intro x h y
    simp only [Imap.peek] at *
    rcases Res.andThen_eq_error.1 h with h1 | ⟨i, w, h1, h2⟩
    · rw [hp.err h1 y]; rfl
    · simp at h2
  fail := by
    intro x k h hk y
    simp only [Imap.peek] at *
    rcases Res.andThen_eq_failure.1 h with h1 | ⟨i, w, h1, h2⟩
    · rw [hp.fail h1 hk y]; rfl
    · simp at h2
  suf := by
    intro x r v h
    simp only [Imap.peek] at *
    obtain ⟨i, w, h1, h2⟩ := Res.andThen_eq_ok.1 h
    simp at h2
    exact ⟨[], by simp [h2.1]⟩
  lit := by
    intro x t n m h
    simp only [Imap.peek] at *
    rcases Res.andThen_eq_failure.1 h with h1 | ⟨i, w, h1, h2⟩
    · exact hp.lit h1
    · simp at h2
  more := by
    intro x t n m h d hd hl
    simp only [Imap.peek] at *
    rcases Res.andThen_eq_failure.1 h with h1 | ⟨i, w, h1, h2⟩
    · rw [hp.more h1 d hd hl]; rfl
    · simp at h2

theorem Nice.recognize {p : P α} (hp : Nice p) : Nice (recognize p) where
  ok := by
    intro x r v h y
    simp only [Imap.recognize] at *
    obtain ⟨i, w, h1, h2⟩ := Res.andThen_eq_ok.1 h
    rw [hp.ok h1 y]
    obtain ⟨c, rfl⟩ := hp.suf h1
    simp at h2
    obtain ⟨rfl, rfl⟩ := h2
    simp only [Res.andThen_ok, List.length_append, Nat.add_sub_cancel, List.append_assoc, List.take_left']
  err := by
    intro x h y
    simp only [Imap.recognize] at *
    rcases Res.andThen_eq_error.1 h with h1 | ⟨i, w, h1, h2⟩
    · rw [hp.err h1 y]; rfl
    · simp at h2
  fail := by
    intro x k h hk y
    simp only [Imap.recognize] at *
    rcases Res.andThen_eq_failure.1 h with h1 | ⟨i, w, h1, h2⟩
    · rw [hp.fail h1 hk y]; rfl
    · simp at h2
  suf := by
    intro x r v h
    simp only [Imap.recognize] at *
    obtain ⟨i, w, h1, h2⟩ := Res.andThen_eq_ok.1 h
    simp at h2
    obtain ⟨rfl, _⟩ := h2
    exact hp.suf h1
  lit := by
    intro x t n m h
    simp only [Imap.recognize] at *
    rcases Res.andThen_eq_failure.1 h with h1 | ⟨i, w, h1, h2⟩
    · exact hp.lit h1
    · simp at h2
  more := by
    intro x t n m h d hd hl
    simp only [Imap.recognize] at *
    rcases Res.andThen_eq_failure.1 h with h1 | ⟨i, w, h1, h2⟩
    · rw [hp.more h1 d hd hl]; rfl
    · simp at h2

theorem Nice.many0 {p : P α} (hp : Nice p) : Nice (many0 p) where
  ok := by
    intro x
    fun_induction Imap.many0 p x with
    | case1 i r v e hl ih =>
      intro r' v' h y
      obtain ⟨i', w, h1, h2⟩ := Res.andThen_eq_ok.1 h
      rw [many0_step (hp.ok e y) (by simp; omega), ih h1 y]
      simp_all
    | case2 => simp
    | case3 i e =>
      intro r' v' h y
      simp at h
      obtain ⟨rfl, rfl⟩ := h
      exact many0_stop (hp.err e y)
    | case4 => simp
    | case5 => simp
  err := by
    intro x
    fun_induction Imap.many0 p x with
    | case1 i r v e hl ih =>
      intro h y
      rcases Res.andThen_eq_error.1 h with h1 | ⟨i, w, h1, h2⟩
      · rw [many0_step (hp.ok e y) (by simp; omega), ih h1 y]; rfl
      · simp at h2
    | case2 i r v e hl =>
      intro _ y
      rw [Imap.many0, hp.ok e y]
      simp
      omega
    | case3 => simp
    | case4 => simp
    | case5 => simp
  fail := by
    intro x
    fun_induction Imap.many0 p x with
    | case1 i r v e hl ih =>
      intro k h hk y
      rcases Res.andThen_eq_failure.1 h with h1 | ⟨i, w, h1, h2⟩
      · rw [many0_step (hp.ok e y) (by simp; omega), ih h1 hk y]; rfl
      · simp at h2
    | case2 => simp
    | case3 => simp
    | case4 => simp
    | case5 i k e =>
      intro k' h hk y
      simp at h
      subst h
      rw [Imap.many0, hp.fail e hk y]
  suf := by
    intro x
    fun_induction Imap.many0 p x with
    | case1 i r v e hl ih =>
      intro r' v' h
      obtain ⟨i', w, h1, h2⟩ := Res.andThen_eq_ok.1 h
      simp at h2
      obtain ⟨rfl, _⟩ := h2
      obtain ⟨c, rfl⟩ := ih h1
      obtain ⟨d, rfl⟩ := hp.suf e
      exact ⟨d ++ c, by simp⟩
    | case2 => simp
    | case3 i e =>
      intro r' v' h
      simp at h
      exact ⟨[], by simp [h.1]⟩
    | case4 => simp
    | case5 => simp
  lit := by
    intro x
    fun_induction Imap.many0 p x with
    | case1 i r v e hl ih =>
      intro t n m h
      rcases Res.andThen_eq_failure.1 h with h1 | ⟨i', w, h1, h2⟩
      · obtain ⟨c, rfl⟩ := hp.suf e
        exact ⟨(ih h1).1, (ih h1).2.prepend⟩
      · simp at h2
    | case2 => simp
    | case3 => simp
    | case4 => simp
    | case5 i k e =>
      intro t n m h
      simp at h
      exact hp.lit (by rw [e, h])
  more := by
    intro x
    fun_induction Imap.many0 p x with
    | case1 i r v e hl ih =>
      intro t n m h d hd hn
      rcases Res.andThen_eq_failure.1 h with h1 | ⟨i', w, h1, h2⟩
      · rw [many0_step (hp.ok e d) (by simp; omega), ih h1 d hd hn]; rfl
      · simp at h2
    | case2 => simp
    | case3 => simp
    | case4 => simp
    | case5 i k e =>
      intro t n m h d hd hn
      simp at h
      subst h
      rw [Imap.many0, hp.more e d hd hn]

theorem Nice.many1 {p : P α} (hp : Nice p) : Nice (many1 p) :=
  hp.bind fun v => (Nice.many0 hp).bind fun vs => Nice.pure _

omit [Quirks] in
theorem many2_eq (p : P α) :
    many2 p = mapRes (many0 p) (fun vs => if 2 ≤ vs.length then some vs else none) := by
  funext i
  simp only [many2, mapRes]
  cases Imap.many0 p i with
  | ok r vs => by_cases hl : 2 ≤ vs.length <;> simp [hl]
  | _ => rfl

theorem Nice.many2 {p : P α} (hp : Nice p) : Nice (many2 p) := by
  rw [many2_eq]
  exact (Nice.many0 hp).mapRes

theorem Nice.sepList1 {sep : P Unit} {p : P α} (hs : Nice sep) (hp : Nice p) : Nice (sepList1 sep p) :=
  hp.bind fun _ => (Nice.many0 (hs.bind fun _ => hp)).bind fun _ => Nice.pure _

omit [Quirks] in
theorem sepList0_eq (sep : P Unit) (p : P α) :
    sepList0 sep p = (do
      match ← opt p with
      | some v => do
        let vs ← (Imap.many0 (do sep; p) : P (List α))
        return v :: vs
      | none => return []) := by
  funext i
  simp only [sepList0, P.bind_apply, Imap.opt]
  cases p i <;> rfl

theorem Nice.sepList0 {sep : P Unit} {p : P α} (hs : Nice sep) (hp : Nice p) : Nice (sepList0 sep p) := by
  rw [sepList0_eq]
  refine hp.opt.bind fun o => ?_
  cases o with
  | none => exact Nice.pure _
  | some v => exact (Nice.many0 (hs.bind fun _ => hp)).bind fun _ => Nice.pure _

theorem Nice.char (c : UInt8) : Nice (char c) := by
  constructor
  all_goals
    intro x
    cases x with
    | nil => simp [Imap.char]
    | cons b bs =>
      simp only [Imap.char, List.cons_append]
      split <;> simp
      try exact ⟨[b], rfl⟩

theorem Nice.tag (t : Bytes) : Nice (tag t) := by
  induction t with
  | nil => exact Nice.pure ()
  | cons c t ih =>
    have e : Imap.tag (c :: t) = (do Imap.char c; Imap.tag t) := by
      funext x
      cases x with
      | nil => rfl
      | cons b bs =>
        simp only [Imap.tag, P.bind_apply, Imap.char, eq_comm]
        split <;> rfl
    rw [e]
    exact (Nice.char c).bind fun _ => ih

theorem Nice.satisfy (f : UInt8 → Bool) : Nice (satisfy f) := by
  constructor
  all_goals
    intro x
    cases x with
    | nil => simp [Imap.satisfy]
    | cons b bs =>
      simp only [Imap.satisfy, List.cons_append]
      split <;> simp
      try exact ⟨[b], rfl⟩

theorem Nice.tagNC (t : Bytes) : Nice (tagNC t) := by
  induction t with
  | nil => exact Nice.pure ()
  | cons c t ih =>
    have e : Imap.tagNC (c :: t) = (do let _ ← Imap.satisfy (fun b => lower c = lower b); Imap.tagNC t) := by
      funext x
      cases x with
      | nil => rfl
      | cons b bs =>
        simp only [Imap.tagNC, P.bind_apply, Imap.satisfy, decide_eq_true_eq]
        split <;> rfl
    rw [e]
    exact (Nice.satisfy _).bind fun _ => ih

theorem Nice.takeExactly (f : UInt8 → Bool) (n : Nat) : Nice (takeExactly f n) := by
  induction n with
  | zero =>
    have e : Imap.takeExactly f 0 = (Pure.pure [] : P Bytes) := by funext x; simp [Imap.takeExactly]
    rw [e]
    exact Nice.pure _
  | succ n ih =>
    have e : Imap.takeExactly f (n + 1) = (do let b ← Imap.satisfy f; let v ← Imap.takeExactly f n; return b :: v) := by
      funext x
      cases x with
      | nil => rfl
      | cons b bs =>
        simp only [Imap.takeExactly, P.bind_apply, Imap.satisfy]
        split <;> rfl
    rw [e]
    exact (Nice.satisfy _).bind fun _ => ih.bind fun _ => Nice.pure _

theorem Nice.take1or2 (f : UInt8 → Bool) : Nice (take1or2 f) := by
  constructor
  all_goals
    intro x
    rcases x with _ | ⟨b, _ | ⟨c, r⟩⟩
    · simp [Imap.take1or2]
    · simp only [Imap.take1or2]
      split <;> simp
      try (intro y; cases y <;> simp_all [Imap.take1or2])
    · simp only [Imap.take1or2, List.cons_append]
      split
      · split <;> simp
        all_goals first | exact ⟨[b, c], rfl⟩ | exact ⟨[b], rfl⟩
      · simp

omit [Quirks] in
theorem takeWhile_eq (f : UInt8 → Bool) : takeWhile f = many0 (satisfy f) := by
  funext x
  induction x with
  | nil => rw [Imap.many0]; rfl
  | cons b bs ih =>
    rw [Imap.many0]
    simp only [Imap.takeWhile, Imap.satisfy]
    by_cases h : f b
    · simp [h, ih]
    · simp [h]

theorem Nice.takeWhile (f : UInt8 → Bool) : Nice (takeWhile f) := by
  rw [takeWhile_eq]
  exact Nice.many0 (Nice.satisfy f)

omit [Quirks] in
theorem takeWhile1_eq (f : UInt8 → Bool) : takeWhile1 f = many1 (satisfy f) := by
  funext x
  cases x with
  | nil => rfl
  | cons b bs =>
    simp only [Imap.takeWhile1, Imap.many1, P.bind_apply, Imap.satisfy, Imap.takeWhile, takeWhile_eq]
    by_cases h : f b
    · simp only [h, if_true, Res.andThen_ok, P.bind_apply]
      rfl
    · simp [h]

theorem Nice.takeWhile1 (f : UInt8 → Bool) : Nice (takeWhile1 f) := by
  rw [takeWhile1_eq]
  exact Nice.many1 (Nice.satisfy f)

theorem Nice.take (n : Nat) : Nice (take n) where
  ok := by
    intro x r v h y
    simp only [Imap.take, List.length_append] at *
    split at h
    · simp at h
    · next hl =>
      have hl' : n ≤ x.length := by omega
      rw [if_neg (by omega)]
      simp at h
      simp [List.drop_append_of_le_length hl', List.take_append_of_le_length hl', h]
  err := by
    intro x h
    simp only [Imap.take] at h
    split at h <;> simp at h
  fail := by
    intro x k h
    simp only [Imap.take] at h
    split at h <;> simp at h
  suf := by
    intro x r v h
    simp only [Imap.take] at h
    split at h <;> simp at h
    exact ⟨x.take n, by simp [← h.1]⟩
  lit := by
    intro x t n m h
    simp only [Imap.take] at h
    split at h <;> simp at h
  more := by
    intro x t n m h
    simp only [Imap.take] at h
    split at h <;> simp at h

theorem Nice.escaped (f : UInt8 → Bool) : Nice (escaped f) where
  ok := by
    intro x
    fun_induction Imap.escaped f x with
    | case1 => simp
    | case2 b h => simp [h]
    | case3 b h =>
      intro r v e y
      simp at e
      obtain ⟨rfl, rfl⟩ := e
      simp at h
      cases y <;> simp [Imap.escaped, h]
    | case4 b c cs h ih =>
      intro r v e y
      obtain ⟨i, w, h1, h2⟩ := Res.andThen_eq_ok.1 e
      have := ih h1 y
      simp at h2
      simp only [List.cons_append] at this
      simp [Imap.escaped, h, this, h2]
    | case5 b c cs h hb hc ih =>
      intro r v e y
      obtain ⟨i, w, h1, h2⟩ := Res.andThen_eq_ok.1 e
      have := ih h1 y
      simp at h2 hb
      subst hb
      simp [Imap.escaped, h, hc, this, h2]
    | case6 => simp
    | case7 b c cs h hb =>
      intro r v e y
      simp at e hb
      obtain ⟨rfl, rfl⟩ := e
      simp [Imap.escaped, h, hb]
  err := by
    intro x
    fun_induction Imap.escaped f x with
    | case1 => simp
    | case2 b h => simp [h]
    | case3 b h => simp
    | case4 b c cs h ih =>
      intro e y
      rcases Res.andThen_eq_error.1 e with h1 | ⟨i, w, h1, h2⟩
      · have := ih h1 y
        simp only [List.cons_append] at this
        simp [Imap.escaped, h, this]
      · simp at h2
    | case5 b c cs h hb hc ih =>
      intro e y
      rcases Res.andThen_eq_error.1 e with h1 | ⟨i, w, h1, h2⟩
      · have := ih h1 y
        simp at hb
        subst hb
        simp [Imap.escaped, h, hc, this]
      · simp at h2
    | case6 b c cs h hb hc =>
      intro e y
      simp at hb
      subst hb
      simp [Imap.escaped, h, hc]
    | case7 => simp
  fail := by
    intro x
    fun_induction Imap.escaped f x with
    | case1 => simp
    | case2 b h => simp
    | case3 b h => simp
    | case4 b c cs h ih =>
      intro k e
      rcases Res.andThen_eq_failure.1 e with h1 | ⟨i, w, h1, h2⟩
      · intro hk y
        have := ih h1 hk y
        simp only [List.cons_append] at this
        simp [Imap.escaped, h, this]
      · simp at h2
    | case5 b c cs h hb hc ih =>
      intro k e
      rcases Res.andThen_eq_failure.1 e with h1 | ⟨i, w, h1, h2⟩
      · intro hk y
        have := ih h1 hk y
        simp at hb
        subst hb
        simp [Imap.escaped, h, hc, this]
      · simp at h2
    | case6 => simp
    | case7 => simp
  suf := by
    intro x
    fun_induction Imap.escaped f x with
    | case1 => simp
    | case2 b h => simp
    | case3 b h =>
      intro r v e
      simp at e
      exact ⟨[], by simp [e.1]⟩
    | case4 b c cs h ih =>
      intro r v e
      obtain ⟨i, w, h1, h2⟩ := Res.andThen_eq_ok.1 e
      simp at h2
      obtain ⟨d, hd⟩ := ih h1
      exact ⟨b :: d, by simp [hd, h2]⟩
    | case5 b c cs h hb hc ih =>
      intro r v e
      obtain ⟨i, w, h1, h2⟩ := Res.andThen_eq_ok.1 e
      simp at h2
      obtain ⟨d, hd⟩ := ih h1
      exact ⟨b :: c :: d, by simp [hd, h2]⟩
    | case6 => simp
    | case7 b c cs h hb =>
      intro r v e
      simp at e
      exact ⟨[], by simp [e.1]⟩
  lit := by
    intro x
    fun_induction Imap.escaped f x with
    | case1 => simp
    | case2 b h => simp
    | case3 b h => simp
    | case4 b c cs h ih =>
      intro t n m e
      rcases Res.andThen_eq_failure.1 e with h1 | ⟨i, w, h1, h2⟩
      · exact ⟨(ih h1).1, (ih h1).2.prepend (c := [b])⟩
      · simp at h2
    | case5 b c cs h hb hc ih =>
      intro t n m e
      rcases Res.andThen_eq_failure.1 e with h1 | ⟨i, w, h1, h2⟩
      · exact ⟨(ih h1).1, (ih h1).2.prepend (c := [b, c])⟩
      · simp at h2
    | case6 => simp
    | case7 => simp
  more := by
    intro x
    fun_induction Imap.escaped f x with
    | case1 => simp
    | case2 b h => simp
    | case3 b h => simp
    | case4 b c cs h ih =>
      intro t n m e d hd hl
      rcases Res.andThen_eq_failure.1 e with h1 | ⟨i, w, h1, h2⟩
      · have := ih h1 d hd hl
        simp only [List.cons_append] at this
        simp [Imap.escaped, h, this]
      · simp at h2
    | case5 b c cs h hb hc ih =>
      intro t n m e d hd hl
      rcases Res.andThen_eq_failure.1 e with h1 | ⟨i, w, h1, h2⟩
      · have := ih h1 d hd hl
        simp at hb
        subst hb
        simp [Imap.escaped, h, hc, this]
      · simp at h2
    | case6 => simp
    | case7 => simp

theorem Nice.sp : Nice sp := Nice.char 32
theorem Nice.dquote : Nice dquote := Nice.char 34

theorem Nice.crlf : Nice crlf := by
  unfold Imap.crlf
  split
  · exact (Nice.opt (Nice.char 13)).bind fun _ => Nice.char 10
  · exact Nice.tag _

/-! ### Instances -/

instance (a : α) : Nice (pure a : P α) := Nice.pure a
instance : Nice (P.fail : P α) := Nice.failP
instance : Nice (fun _ => .failure .literalContainsNull : P α) := Nice.failure (by simp)
instance : Nice (fun _ => .failure .recursionLimit : P α) := Nice.failure (by simp)
instance : Nice (fun _ => .failure .badDateTime : P α) := Nice.failure (by simp)
instance : Nice (fun _ => .failure .verify : P α) := Nice.failure (by simp)
instance {p : P α} {f : α → P β} [h : Nice p] [hf : ∀ v, Nice (f v)] : Nice (p >>= f) := h.bind hf
instance {p : P α} {f : α → β} [h : Nice p] : Nice (f <$> p) := h.map
instance {p : P α} {v : β} [h : Nice p] : Nice (value v p) := h.value
instance {p q : P α} [h : Nice p] [h' : Nice q] : Nice (orElse p q) := h.orElse h'
instance : Nice (alt ([] : List (P α))) := Nice.failP
instance {p : P α} {ps : List (P α)} [h : Nice p] [h' : Nice (alt ps)] : Nice (alt (p :: ps)) := h.orElse h'
instance {p : P α} [h : Nice p] : Nice (opt p) := h.opt
instance {b : Bool} {p : P α} [h : Nice p] : Nice (gate b p) := h.gate
instance {p : P α} {f : α → Option β} [h : Nice p] : Nice (mapRes p f) := h.mapRes
instance {p : P α} [h : Nice p] : Nice (peek p) := h.peek
instance {p : P α} [h : Nice p] : Nice (recognize p) := h.recognize
instance {p : P α} [h : Nice p] : Nice (many0 p) := h.many0
instance {p : P α} [h : Nice p] : Nice (many1 p) := h.many1
instance {p : P α} [h : Nice p] : Nice (many2 p) := h.many2
instance {s : P Unit} {p : P α} [h : Nice s] [h' : Nice p] : Nice (sepList1 s p) := h.sepList1 h'
instance {s : P Unit} {p : P α} [h : Nice s] [h' : Nice p] : Nice (sepList0 s p) := h.sepList0 h'
instance (c : UInt8) : Nice (char c) := Nice.char c
instance (t : Bytes) : Nice (tag t) := Nice.tag t
instance (t : Bytes) : Nice (tagNC t) := Nice.tagNC t
instance (f : UInt8 → Bool) : Nice (satisfy f) := Nice.satisfy f
instance (f : UInt8 → Bool) (n : Nat) : Nice (takeExactly f n) := Nice.takeExactly f n
instance (f : UInt8 → Bool) : Nice (take1or2 f) := Nice.take1or2 f
instance (f : UInt8 → Bool) : Nice (takeWhile f) := Nice.takeWhile f
instance (f : UInt8 → Bool) : Nice (takeWhile1 f) := Nice.takeWhile1 f
instance (n : Nat) : Nice (take n) := Nice.take n
instance (f : UInt8 → Bool) : Nice (escaped f) := Nice.escaped f
instance : Nice sp := Nice.sp
instance : Nice dquote := Nice.dquote
instance : Nice crlf := Nice.crlf
instance {c : Prop} [Decidable c] {p q : P α} [h : Nice p] [h' : Nice q] : Nice (if c then p else q) := by
  split
  · exact h
  · exact h'

end Imap
