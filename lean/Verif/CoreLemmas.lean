import Verif.Core
import Verif.Post
/-
Facts about the core parsers and encoders: escaping, base64, numbers, strings.
-/
set_option maxRecDepth 10000

namespace Imap

/-! ### Escaping -/

/-- The escaped form of one byte. -/
def esc1 (b : UInt8) : Bytes := if b = 92 then [92, 92] else if b = 34 then [92, 34] else [b]

theorem escapeQuoted_eq (s : Bytes) : escapeQuoted s = s.flatMap esc1 := by
  unfold escapeQuoted replace1
  induction s with
  | nil => rfl
  | cons b s ih =>
    simp only [List.flatMap_cons, List.flatMap_append, ih]
    congr 1
    unfold esc1
    by_cases h : b = 92
    · subst h; rfl
    · by_cases h' : b = 34 <;> simp [h, h']

@[simp] theorem escapeQuoted_nil : escapeQuoted [] = [] := rfl

theorem escapeQuoted_cons (b : UInt8) (s : Bytes) : escapeQuoted (b :: s) = esc1 b ++ escapeQuoted s := by
  simp [escapeQuoted_eq]

/-- First step of unescaping. -/
theorem replace2_backslash (s : Bytes) :
    replace2 92 92 b!"\\" (escapeQuoted s) = replace1 34 b!"\\\"" s := by
  induction s with
  | nil => rfl
  | cons b s ih =>
    rw [escapeQuoted_cons]
    simp only [replace1, List.flatMap_cons] at *
    unfold esc1
    by_cases h : b = 92
    · subst h
      simp [replace2, ih]
    · by_cases h' : b = 34
      · subst h'
        cases hs : escapeQuoted s with
        | nil =>
          rw [hs] at ih
          simpa [replace2] using ih
        | cons c cs =>
          rw [hs] at ih
          simp [replace2, ih]
      · simp only [h, h', if_false, List.singleton_append]
        cases hs : escapeQuoted s with
        | nil =>
          rw [hs] at ih
          simpa [replace2] using ih
        | cons c cs =>
          rw [hs] at ih
          simp [replace2, h, ih]

/-- Second step of unescaping. -/
theorem replace2_quote (s : Bytes) : replace2 92 34 b!"\"" (replace1 34 b!"\\\"" s) = s := by
  induction s with
  | nil => rfl
  | cons b s ih =>
    simp only [replace1, List.flatMap_cons] at *
    by_cases h : b = 34
    · subst h
      simp [replace2, ih]
    · simp only [h, if_false, List.singleton_append]
      cases s with
      | nil => simp [replace2]
      | cons c s =>
        simp only [List.flatMap_cons] at *
        by_cases h' : c = 34
        · subst h'
          simp only [if_true, List.cons_append, List.nil_append] at *
          rw [replace2, if_neg (by simp), ih]
        · simp only [if_neg h', List.singleton_append] at ih ⊢
          rw [replace2, if_neg (by simpa using fun _ => h'), ih]

theorem unescape_escape (s : Bytes) : unescapeQuoted (escapeQuoted s) = s := by
  rw [unescapeQuoted, replace2_backslash, replace2_quote]

/-- `escaped` reads an escaped string up to the first byte that can neither be part of it nor starts an escape. -/
theorem escaped_escape {f : UInt8 → Bool} (h92 : f 92 = false) (h34 : f 34 = false) {s t : Bytes}
    (hs : ∀ b ∈ s, f b = true ∨ isQuotedSpecials b = true) (ht : Stops (fun b => f b || b == 92) t = true) :
    escaped f (escapeQuoted s ++ t) = .ok t (escapeQuoted s) := by
  induction s with
  | nil =>
    obtain ⟨b, bs, rfl, hb⟩ := exists_of_stops ht
    simp only [Bool.or_eq_false_iff, beq_eq_false_iff_ne] at hb
    cases bs <;> simp [escaped, hb]
  | cons b s ih =>
    have ih := ih fun c hc => hs c (List.mem_cons_of_mem _ hc)
    have hb := hs b (by simp)
    rw [escapeQuoted_cons]
    unfold esc1
    by_cases h : b = 92
    · subst h
      simp [escaped, h92, isQuotedSpecials, ih]
    · by_cases h' : b = 34
      · subst h'
        simp [escaped, h92, isQuotedSpecials, ih]
      · have hb : f b = true := by
          rcases hb with hb | hb
          · exact hb
          · simp [isQuotedSpecials, h, h'] at hb
        simp only [h, h', if_false, List.cons_append, List.nil_append]
        obtain ⟨c, cs, hc⟩ : ∃ c cs, escapeQuoted s ++ t = c :: cs := by
          obtain ⟨c, cs, rfl, _⟩ := exists_of_stops ht
          cases escapeQuoted s <;> simp
        rw [hc] at ih ⊢
        simp [escaped, hb, ih]

/-- Everything read by `escaped` is an escaped string. -/
theorem escaped_post (f : UInt8 → Bool) (h92 : f 92 = false) (h34 : f 34 = false) :
    Post (escaped f) fun e => ∃ s, e = escapeQuoted s ∧ ∀ b ∈ s, f b = true ∨ isQuotedSpecials b = true := by
  intro x
  fun_induction Imap.escaped f x with
  | case1 => simp
  | case2 b h => simp
  | case3 b h =>
    intro r v e
    simp at e
    exact ⟨[], by simp [e.2]⟩
  | case4 b c cs h ih =>
    intro r v e
    obtain ⟨i, w, h1, h2⟩ := Res.andThen_eq_ok.1 e
    simp at h2
    obtain ⟨s, rfl, hs⟩ := ih _ _ h1
    refine ⟨b :: s, ?_, ?_⟩
    · rw [← h2.2, escapeQuoted_cons]
      have : b ≠ 92 := by rintro rfl; simp [h92] at h
      have : b ≠ 34 := by rintro rfl; simp [h34] at h
      simp [esc1, *]
    · intro d hd
      rcases List.mem_cons.1 hd with rfl | hd
      · exact .inl h
      · exact hs d hd
  | case5 b c cs h hb hc ih =>
    intro r v e
    obtain ⟨i, w, h1, h2⟩ := Res.andThen_eq_ok.1 e
    simp at h2 hb
    obtain ⟨s, rfl, hs⟩ := ih _ _ h1
    refine ⟨c :: s, ?_, ?_⟩
    · rw [← h2.2, escapeQuoted_cons, hb]
      simp only [isQuotedSpecials, Bool.or_eq_true, beq_iff_eq] at hc
      rcases hc with rfl | rfl <;> rfl
    · intro d hd
      rcases List.mem_cons.1 hd with rfl | hd
      · exact .inr hc
      · exact hs d hd
  | case6 => simp
  | case7 b c cs h hb =>
    intro r v e
    simp at e
    exact ⟨[], by simp [e.2]⟩

/-! ### UTF-8 -/

theorem Utf8.step_ascii {b : UInt8} (h : b < 0x80) : ∀ s : Utf8, s.step b = if s = .s0 then some .s0 else none := by
  intro s
  have key : ∀ b : UInt8, b < 0x80 → s.step b = if s = .s0 then some .s0 else none := by
    cases s <;> exact forall_byte (by decide)
  exact key b h

theorem Utf8.run_escape (s : Utf8) (bs : Bytes) : s.run (escapeQuoted bs) = s.run bs := by
  induction bs generalizing s with
  | nil => rfl
  | cons b bs ih =>
    rw [escapeQuoted_cons]
    by_cases h : b = 92
    · subst h
      simp only [esc1, if_true, List.cons_append, List.nil_append, Utf8.run,
        Utf8.step_ascii (b := 92) (by decide)]
      cases s <;> simp [ih]
    · by_cases h' : b = 34
      · subst h'
        rw [show esc1 34 = [92, 34] from rfl]
        simp only [List.cons_append, List.nil_append, Utf8.run, Utf8.step_ascii (b := 92) (by decide)]
        cases s <;> simp [ih, Utf8.run, Utf8.step_ascii (b := 34) (by decide)]
      · simp only [esc1, h, h', if_false, List.singleton_append, Utf8.run]
        cases s.step b <;> simp [ih]

theorem isUtf8_escape (bs : Bytes) : isUtf8 (escapeQuoted bs) = isUtf8 bs := Utf8.run_escape _ _

theorem isUtf8_of_ascii {bs : Bytes} (h : ∀ b ∈ bs, b < 0x80) : isUtf8 bs = true := by
  unfold isUtf8
  induction bs with
  | nil => rfl
  | cons b bs ih =>
    simp only [Utf8.run, Utf8.step_ascii (h b (by simp)), if_true]
    exact ih fun c hc => h c (by simp [hc])

/-! ### Base64 -/

theorem b64Val_char {n : Nat} (h : n < 64) : b64Val (b64Char n) = some n := by
  have : ∀ n : Fin 64, b64Val (b64Char n.1) = some n.1 := by decide
  exact this ⟨n, h⟩

theorem isBase64Char_char {n : Nat} (h : n < 64) : isBase64Char (b64Char n) = true := by
  have : ∀ n : Fin 64, isBase64Char (b64Char n.1) = true := by decide
  exact this ⟨n, h⟩

theorem b64Char_ne {n : Nat} (h : n < 64) : (b64Char n == 61) = false := by
  have : ∀ n : Fin 64, (b64Char n.1 == 61) = false := by decide
  exact this ⟨n, h⟩

theorem byte_ext {n : Nat} {b : UInt8} (h : n = b.toNat) : UInt8.ofNat n = b := by
  subst h
  simp

theorem b64_decode_encode (d : Bytes) : b64Decode (b64Encode d) = some d := by
  fun_induction b64Encode d with
  | case1 => rfl
  | case2 a =>
    have ha := a.toNat_lt
    rw [b64Decode, if_pos (by simp)]
    rw [b64Val_char (by omega), b64Val_char (by omega)]
    simp only [Option.bind_eq_bind, Option.bind_some]
    rw [if_pos (by omega), byte_ext (b := a) (by omega)]
  | case3 a b =>
    have ha := a.toNat_lt
    have hb := b.toNat_lt
    rw [b64Decode, if_neg (by simp [-beq_iff_eq, b64Char_ne (n := b.toNat % 16 * 4) (by omega)]), if_pos (by simp)]
    rw [b64Val_char (by omega), b64Val_char (by omega), b64Val_char (by omega)]
    simp only [Option.bind_eq_bind, Option.bind_some]
    rw [if_pos (by omega), byte_ext (b := a) (by omega), byte_ext (b := b) (by omega)]
  | case4 a b c r ih =>
    have ha := a.toNat_lt
    have hb := b.toNat_lt
    have hc := c.toNat_lt
    rw [b64Decode, if_neg (by simp [-beq_iff_eq, b64Char_ne (n := c.toNat % 64) (by omega)]),
      if_neg (by simp [-beq_iff_eq, b64Char_ne (n := c.toNat % 64) (by omega)])]
    rw [b64Val_char (by omega), b64Val_char (by omega), b64Val_char (by omega), b64Val_char (by omega), ih]
    simp only [Option.bind_eq_bind, Option.bind_some]
    rw [byte_ext (b := a) (by omega), byte_ext (b := b) (by omega), byte_ext (b := c) (by omega)]

/-- The encoding consists of base64 characters and at most two padding characters. -/
theorem b64Encode_shape (d : Bytes) :
    ∃ cs pad, b64Encode d = cs ++ pad ∧ cs.all isBase64Char = true ∧ (pad = [] ∨ pad = b!"=" ∨ pad = b!"==") := by
  fun_induction b64Encode d with
  | case1 => exact ⟨[], [], by simp⟩
  | case2 a =>
    have ha := a.toNat_lt
    refine ⟨[_, _], b!"==", rfl, ?_, by simp⟩
    simp only [List.all_cons, List.all_nil, Bool.and_true, Bool.and_eq_true]
    exact ⟨isBase64Char_char (by omega), isBase64Char_char (by omega)⟩
  | case3 a b =>
    have ha := a.toNat_lt
    have hb := b.toNat_lt
    refine ⟨[_, _, _], b!"=", rfl, ?_, by simp⟩
    simp only [List.all_cons, List.all_nil, Bool.and_true, Bool.and_eq_true]
    exact ⟨isBase64Char_char (by omega), isBase64Char_char (by omega), isBase64Char_char (by omega)⟩
  | case4 a b c r ih =>
    have ha := a.toNat_lt
    have hb := b.toNat_lt
    have hc := c.toNat_lt
    obtain ⟨cs, pad, h1, h2, h3⟩ := ih
    refine ⟨_ :: _ :: _ :: _ :: cs, pad, by rw [h1]; rfl, ?_, h3⟩
    simp only [List.all_cons, Bool.and_eq_true]
    exact ⟨isBase64Char_char (by omega), isBase64Char_char (by omega), isBase64Char_char (by omega),
      isBase64Char_char (by omega), h2⟩

/-- Strictness: only canonical encodings are accepted. -/
theorem b64_encode_decode (e d : Bytes) (h : b64Decode e = some d) : b64Encode d = e := by
  have inv : ∀ (b : UInt8) (n : Nat), b64Val b = some n → n < 64 ∧ b64Char n = b := by
    intro b n hb
    have : ∀ b, (b64Val b).all (fun n => n < 64 && b64Char n == b) = true := forall_byte (by decide)
    have := this b
    rw [hb] at this
    simpa using this
  have tn : ∀ n, n < 256 → (UInt8.ofNat n).toNat = n := by
    intro n hn
    simp [UInt8.toNat_ofNat']
    omega
  fun_induction b64Decode e generalizing d with
  | case1 => simp at h; subst h; rfl
  | case2 w x y z r hc =>
    simp only [Option.bind_eq_bind, Option.bind_eq_some_iff] at h
    obtain ⟨w', hw, x', hx, h⟩ := h
    split at h <;> simp only [Option.some.injEq, reduceCtorEq] at h
    next hx16 =>
    subst h
    obtain ⟨w1, rfl⟩ := inv _ _ hw
    obtain ⟨x1, rfl⟩ := inv _ _ hx
    simp at hc
    obtain ⟨⟨rfl, rfl⟩, rfl⟩ := hc
    simp only [b64Encode, tn _ (show w' * 4 + x' / 16 < 256 by omega)]
    rw [show (w' * 4 + x' / 16) / 4 = w' by omega, show (w' * 4 + x' / 16) % 4 * 16 = x' by omega]
  | case3 w x y z r hc hc' =>
    simp only [Option.bind_eq_bind, Option.bind_eq_some_iff] at h
    obtain ⟨w', hw, x', hx, y', hy, h⟩ := h
    split at h <;> simp only [Option.some.injEq, reduceCtorEq] at h
    next hy4 =>
    subst h
    obtain ⟨w1, rfl⟩ := inv _ _ hw
    obtain ⟨x1, rfl⟩ := inv _ _ hx
    obtain ⟨y1, rfl⟩ := inv _ _ hy
    simp at hc'
    obtain ⟨rfl, rfl⟩ := hc'
    simp only [b64Encode, tn _ (show w' * 4 + x' / 16 < 256 by omega),
      tn _ (show x' % 16 * 16 + y' / 4 < 256 by omega)]
    rw [show (w' * 4 + x' / 16) / 4 = w' by omega,
      show (w' * 4 + x' / 16) % 4 * 16 + (x' % 16 * 16 + y' / 4) / 16 = x' by omega,
      show (x' % 16 * 16 + y' / 4) % 16 * 4 = y' by omega]
  | case4 w x y z r hc hc' ih =>
    simp only [Option.bind_eq_bind, Option.bind_eq_some_iff] at h
    obtain ⟨w', hw, x', hx, y', hy, z', hz, r', hr, h⟩ := h
    simp only [Option.some.injEq] at h
    subst h
    obtain ⟨w1, rfl⟩ := inv _ _ hw
    obtain ⟨x1, rfl⟩ := inv _ _ hx
    obtain ⟨y1, rfl⟩ := inv _ _ hy
    obtain ⟨z1, rfl⟩ := inv _ _ hz
    simp only [b64Encode, tn _ (show w' * 4 + x' / 16 < 256 by omega),
      tn _ (show x' % 16 * 16 + y' / 4 < 256 by omega), tn _ (show y' % 4 * 64 + z' < 256 by omega)]
    rw [ih _ hr, show (w' * 4 + x' / 16) / 4 = w' by omega,
      show (w' * 4 + x' / 16) % 4 * 16 + (x' % 16 * 16 + y' / 4) / 16 = x' by omega,
      show (x' % 16 * 16 + y' / 4) % 16 * 4 + (y' % 4 * 64 + z') / 64 = y' by omega,
      show (y' % 4 * 64 + z') % 64 = z' by omega]
  | case5 => simp at h

/-! ### Niceness -/

section
variable [Quirks]

instance : Nice number := by unfold number; infer_instance
instance : Nice number64 := by unfold number64; infer_instance
instance : Nice nzNumber := by unfold nzNumber; infer_instance
instance : Nice quoted := by unfold quoted; infer_instance
instance : Nice quotedChar := by unfold quotedChar; infer_instance
instance : Nice quotedUtf8 := by unfold quotedUtf8; infer_instance
instance (s) : Nice (literalHdr s) := by unfold literalHdr; infer_instance

omit [Quirks] in
theorem exists_of_tag {t x r : Bytes} {v : Unit} (h : tag t x = .ok r v) : x = t ++ r := by
  induction t generalizing x with
  | nil => simp [tag] at h; simp [h]
  | cons b t ih =>
    cases x with
    | nil => simp [tag] at h
    | cons c x =>
      simp only [tag] at h
      split at h
      · next hb => rw [hb, ih h]; rfl
      · simp at h

omit [Quirks] in
theorem exists_of_char {c : UInt8} {x r : Bytes} {v : Unit} (h : char c x = .ok r v) : x = c :: r := by
  cases x with
  | nil => simp [char] at h
  | cons b bs =>
    simp only [char] at h
    split at h <;> simp at h
    simp_all

omit [Quirks] in
theorem exists_of_opt {α : Type} {p : P α} {x r : Bytes} {o : Option α} (h : opt p x = .ok r o) :
    (∃ v, o = some v ∧ p x = .ok r v) ∨ (o = none ∧ r = x ∧ p x = .error) := by
  unfold opt at h
  cases e : p x <;> rw [e] at h <;> simp at h
  · simp [← h.2, h.1]
  · simp [← h.2, h.1]

omit [Quirks] in
theorem exists_of_takeWhile {f : UInt8 → Bool} {x r v : Bytes} (h : takeWhile f x = .ok r v) :
    x = v ++ r ∧ v.all f = true ∧ Stops f r = true := by
  induction x generalizing v with
  | nil => simp [takeWhile] at h
  | cons b x ih =>
    simp only [takeWhile] at h
    split at h
    · next hb =>
      obtain ⟨i, w, h1, h2⟩ := Res.andThen_eq_ok.1 h
      simp at h2
      obtain ⟨rfl, rfl⟩ := h2
      have := ih h1
      simp [hb, this.2, ← this.1]
    · next hb =>
      simp at h
      obtain ⟨rfl, rfl⟩ := h
      simpa using hb

omit [Quirks] in
theorem exists_of_takeWhile1 {f : UInt8 → Bool} {x r v : Bytes} (h : takeWhile1 f x = .ok r v) :
    x = v ++ r ∧ v ≠ [] ∧ v.all f = true ∧ Stops f r = true := by
  cases x with
  | nil => simp [takeWhile1] at h
  | cons b x =>
    simp only [takeWhile1] at h
    split at h
    · next hb =>
      have := exists_of_takeWhile h
      refine ⟨this.1, ?_, this.2⟩
      rintro rfl
      obtain ⟨h1, _, h3⟩ := this
      simp at h1
      simp [← h1, hb] at h3
    · simp at h

omit [Quirks] in
theorem exists_of_mapRes {α β : Type} {p : P α} {f : α → Option β} {x r : Bytes} {w : β}
    (h : mapRes p f x = .ok r w) : ∃ v, p x = .ok r v ∧ f v = some w := by
  unfold mapRes at h
  cases e : p x <;> rw [e] at h <;> simp at h
  split at h <;> simp at h
  obtain ⟨rfl, rfl⟩ := h
  exact ⟨_, rfl, by assumption⟩

omit [Quirks] in
theorem exists_of_number {x r : Bytes} {n : Nat} (h : number x = .ok r n) :
    ∃ ds, x = ds ++ r ∧ ds ≠ [] ∧ (∀ d ∈ ds, isDigit d) ∧ decVal ds = n ∧ n < 2^32 := by
  obtain ⟨ds, h1, h2⟩ := exists_of_mapRes h
  have := exists_of_takeWhile1 h1
  split at h2 <;> simp at h2
  exact ⟨ds, this.1, this.2.1, by simpa [List.all_eq_true] using this.2.2.1, h2, by omega⟩

theorem exists_of_crlf {x r : Bytes} {v : Unit} (h : crlf x = .ok r v) :
    ∃ e, x = Frag.endingBytes e ++ r ∧ (Quirks.crlfRelaxed = false → e = .crlf) := by
  unfold crlf at h
  split at h
  · next hq =>
    simp only [P.bind_apply] at h
    obtain ⟨i, w, h1, h2⟩ := Res.andThen_eq_ok.1 h
    have h2 := exists_of_char h2
    rcases exists_of_opt h1 with ⟨v, rfl, h3⟩ | ⟨rfl, rfl, h3⟩
    · have h3 := exists_of_char h3
      exact ⟨.crlf, by simp [Frag.endingBytes, h3, h2], by simp⟩
    · exact ⟨.lf, by simp [Frag.endingBytes, h2], by simp [hq]⟩
  · exact ⟨.crlf, exists_of_tag h, by simp⟩

/-- What precedes the data of a literal is an announcement. -/
theorem exists_of_literalHdr {s x r : Bytes} {n : Nat} {m : Mode} (hs : s = b!"{" ∨ s = b!"~{")
    (h : literalHdr s x = .ok r (n, m)) : ∃ c, x = c ++ r ∧ EndsAnnouncing c n m := by
  unfold literalHdr at h
  simp only [P.bind_apply] at h
  obtain ⟨i1, v1, e1, h⟩ := Res.andThen_eq_ok.1 h
  obtain ⟨i2, v2, e2, h⟩ := Res.andThen_eq_ok.1 h
  obtain ⟨i3, v3, e3, h⟩ := Res.andThen_eq_ok.1 h
  obtain ⟨i4, v4, e4, h⟩ := Res.andThen_eq_ok.1 h
  obtain ⟨i5, v5, e5, h⟩ := Res.andThen_eq_ok.1 h
  simp at h
  obtain ⟨rfl, rfl, rfl⟩ := h
  have e1 := exists_of_tag e1
  obtain ⟨ds, rfl, hne, hd, hv, hlt⟩ := exists_of_number e2
  have e4 := exists_of_tag e4
  obtain ⟨e, rfl, he⟩ := exists_of_crlf e5
  subst e4
  rcases exists_of_opt e3 with ⟨v, rfl, h3⟩ | ⟨rfl, rfl, h3⟩
  · have h3 := exists_of_char h3
    subst h3 e1
    refine ⟨s ++ ds ++ b!"+" ++ b!"}" ++ Frag.endingBytes e, by simp, ?_⟩
    rcases hs with rfl | rfl
    · exact ⟨[], ds, e, by simp [Frag.modeBytes], he, hne, hd, hv, hlt⟩
    · exact ⟨b!"~", ds, e, by simp [Frag.modeBytes], he, hne, hd, hv, hlt⟩
  · subst e1
    refine ⟨s ++ ds ++ b!"}" ++ Frag.endingBytes e, by simp, ?_⟩
    rcases hs with rfl | rfl
    · exact ⟨[], ds, e, by simp [Frag.modeBytes], he, hne, hd, hv, hlt⟩
    · exact ⟨b!"~", ds, e, by simp [Frag.modeBytes], he, hne, hd, hv, hlt⟩

/-- The prefix and the data of a literal. -/
def literalRaw (s : Bytes) : P (Bytes × Mode) := do
  let (n, m) ← literalHdr s
  let d ← literalData n m
  return (d, m)

theorem Nice.literalRaw {s : Bytes} (hs : s = b!"{" ∨ s = b!"~{") : Nice (literalRaw s) := by
  have hh : Nice (literalHdr s) := inferInstance
  have eq : ∀ x, Imap.literalRaw s x =
      (literalHdr s x).andThen fun v i => if i.isEmpty then .failure (.literal none v.1 v.2)
        else (Imap.take v.1 i).andThen fun d i => .ok i (d, v.2) := by
    intro x
    simp only [Imap.literalRaw, P.bind_apply]
    cases literalHdr s x with
    | ok i v =>
      simp only [Res.andThen_ok, P.bind_apply, literalData]
      split <;> rfl
    | _ => rfl
  constructor
  · intro x r v h y
    rw [eq] at h ⊢
    obtain ⟨i, w, h1, h2⟩ := Res.andThen_eq_ok.1 h
    split at h2
    · simp at h2
    · next hi =>
      obtain ⟨j, d, h3, h4⟩ := Res.andThen_eq_ok.1 h2
      rw [hh.ok h1 y]
      simp at h4
      simp only [Res.andThen_ok]
      rw [if_neg (by simp_all), (Nice.take _).ok h3 y]
      simp [h4]
  · intro x h y
    rw [eq] at h ⊢
    rcases Res.andThen_eq_error.1 h with h1 | ⟨i, w, h1, h2⟩
    · rw [hh.err h1 y]; rfl
    · split at h2
      · simp at h2
      · next hi =>
        rcases Res.andThen_eq_error.1 h2 with h3 | ⟨i, w, h3, h4⟩
        · rw [hh.ok h1 y]
          simp only [Res.andThen_ok]
          rw [if_neg (by simp_all), (Nice.take _).err h3 y]
          rfl
        · simp at h4
  · intro x k h hk y
    rw [eq] at h ⊢
    rcases Res.andThen_eq_failure.1 h with h1 | ⟨i, w, h1, h2⟩
    · rw [hh.fail h1 hk y]; rfl
    · split at h2
      · simp at h2
        exact absurd h2.symm (hk _ _ _)
      · next hi =>
        rcases Res.andThen_eq_failure.1 h2 with h3 | ⟨i, w, h3, h4⟩
        · rw [hh.ok h1 y]
          simp only [Res.andThen_ok]
          rw [if_neg (by simp_all), (Nice.take _).fail h3 hk y]
          rfl
        · simp at h4
  · intro x r v h
    rw [eq] at h
    obtain ⟨i, w, h1, h2⟩ := Res.andThen_eq_ok.1 h
    split at h2
    · simp at h2
    · obtain ⟨j, d, h3, h4⟩ := Res.andThen_eq_ok.1 h2
      simp at h4
      obtain ⟨rfl, _⟩ := h4
      obtain ⟨c, rfl⟩ := hh.suf h1
      obtain ⟨c', rfl⟩ := (Nice.take _).suf h3
      exact ⟨c ++ c', by simp⟩
  · intro x t n m h
    rw [eq] at h
    rcases Res.andThen_eq_failure.1 h with h1 | ⟨i, w, h1, h2⟩
    · exact hh.lit h1
    · split at h2
      · next hi =>
        simp at h2 hi
        obtain ⟨rfl, rfl, rfl⟩ := h2
        obtain ⟨c, rfl, hc⟩ := exists_of_literalHdr hs h1
        subst hi
        simpa using hc
      · rcases Res.andThen_eq_failure.1 h2 with h3 | ⟨i', w, h3, h4⟩
        · obtain ⟨c, rfl⟩ := hh.suf h1
          exact ⟨((Nice.take _).lit h3).1, ((Nice.take _).lit h3).2.prepend⟩
        · simp at h4
  · intro x t n m h d hd hl
    rw [eq] at h ⊢
    rcases Res.andThen_eq_failure.1 h with h1 | ⟨i, w, h1, h2⟩
    · rw [hh.more h1 d hd hl]; rfl
    · split at h2
      · next hi =>
        simp at h2 hi
        obtain ⟨rfl, rfl, rfl⟩ := h2
        rw [hh.ok h1 d]
        subst hi
        simp only [List.nil_append, Res.andThen_ok]
        rw [if_neg (by simpa using hd)]
        simp [Imap.take, hl]
      · rcases Res.andThen_eq_failure.1 h2 with h3 | ⟨i', w, h3, h4⟩
        · simp only [Imap.take] at h3
          split at h3 <;> simp at h3
        · simp at h4

theorem literal_eq : literal = (do
    let d ← literalRaw b!"{"
    if d.1.all isChar8 then return ⟨d.1, d.2⟩ else fun _ => .failure .literalContainsNull) := by
  funext x
  simp only [literal, literalRaw, P.bind_apply]
  cases literalHdr b!"{" x with
  | ok i v =>
    simp only [Res.andThen_ok, P.bind_apply]
    cases literalData v.1 v.2 i <;> rfl
  | _ => rfl

theorem literal8_eq : literal8 = (do
    let d ← literalRaw b!"~{"
    return ⟨d.1, d.2⟩) := by
  funext x
  simp only [literal8, literalRaw, P.bind_apply]
  cases literalHdr b!"~{" x with
  | ok i v =>
    simp only [Res.andThen_ok, P.bind_apply]
    cases literalData v.1 v.2 i <;> rfl
  | _ => rfl

instance : Nice literal := by
  have := Nice.literalRaw (s := b!"{") (.inl rfl)
  rw [literal_eq]
  infer_instance

instance : Nice literal8 := by
  have := Nice.literalRaw (s := b!"~{") (.inr rfl)
  rw [literal8_eq]
  infer_instance

instance : Nice string := by unfold string; infer_instance
instance : Nice astring := by unfold astring; infer_instance
instance : Nice atom := by unfold atom; infer_instance
instance : Nice nil := by unfold nil; infer_instance
instance : Nice nstring := by unfold nstring; infer_instance
instance : Nice text := by unfold text; infer_instance
instance : Nice base64 := by unfold base64; infer_instance
instance : Nice charset := by unfold charset; infer_instance
instance : Nice tagImap := by unfold tagImap; infer_instance

/-! ### Postconditions -/

omit [Quirks] in
theorem decide_lt_of_some {n m b : Nat} (h : (if n < b then some n else none) = some m) : m < b := by
  split at h <;> simp at h
  omega

instance : Canon number fun n => n < 4294967296 := ⟨by
  unfold number
  post
  exact decide_lt_of_some hw⟩

instance : Canon number64 fun n => n < 18446744073709551616 := ⟨by
  unfold number64
  post
  exact decide_lt_of_some hw⟩

instance : Canon nzNumber fun n => 0 < n ∧ n < 4294967296 := ⟨by
  unfold nzNumber
  post
  split at hw <;> simp at hw
  omega⟩

omit [Quirks] in
theorem text_or_special : ∀ b, (isAnyTextCharExceptQuotedSpecials b = true ∨ isQuotedSpecials b = true) ↔ isTextChar b = true :=
  forall_byte (by decide)

instance : Canon quoted fun s => isQuoted s = true := ⟨by
  unfold quoted
  have : Canon (escaped isAnyTextCharExceptQuotedSpecials) _ := ⟨escaped_post _ rfl rfl⟩
  post
  next v hv v' hv' =>
  obtain ⟨s, rfl, hs⟩ := hv'
  rw [unescape_escape, isQuoted, List.all_eq_true]
  exact fun b hb => (text_or_special b).1 (hs b hb)⟩

instance : Canon quotedChar fun b => isQuotedChar b = true := ⟨by
  unfold quotedChar
  post
  · exact (text_or_special _).1 (.inl hv)
  · exact (text_or_special _).1 (.inr hv)⟩

instance : Canon quotedUtf8 fun s => isUtf8 s = true := ⟨by
  unfold quotedUtf8
  have : Canon (escaped fun b => !isQuotedSpecials b) _ := ⟨escaped_post _ rfl rfl⟩
  have : Canon (mapRes (escaped fun b => !isQuotedSpecials b) fun s => if isUtf8 s then some s else none)
      fun s => ∃ u, s = escapeQuoted u ∧ isUtf8 u = true := ⟨by
    post
    obtain ⟨s, rfl, hs⟩ := hv
    split at hw <;> simp at hw
    next hu =>
    exact ⟨s, hw.symm, by rw [← isUtf8_escape]; exact hu⟩⟩
  post
  next v hv v' hv' =>
  obtain ⟨s, rfl, hs⟩ := hv'
  rw [unescape_escape]
  exact hs⟩

instance {s : Bytes} : Canon (literalHdr s) fun v => v.1 < 4294967296 := ⟨by
  unfold literalHdr
  post
  assumption⟩

instance {s : Bytes} : Canon (literalRaw s) fun v => v.1.length < 4294967296 := ⟨by
  unfold literalRaw
  refine Post.bind fun v hv => ?_
  have : Canon (literalData v.1 v.2) fun d => d.length = v.1 := ⟨by
    intro x r d e
    unfold literalData at e
    split at e
    · simp at e
    · exact (Canon.take (n := v.1)).post _ _ _ e⟩
  post
  next d hd =>
  simp only
  omega⟩

instance : Canon literal fun l => l.valid = true := ⟨by
  rw [literal_eq]
  post
  simp only [Literal.valid, Bool.and_eq_true, decide_eq_true_eq]
  exact ⟨by assumption, by assumption⟩⟩

instance : Canon literal8 fun l => l.valid = true := ⟨by
  rw [literal8_eq]
  post
  simpa only [Literal8.valid, decide_eq_true_eq] using hv⟩

/-! ### Round trips -/

theorem rt_crlf (r : Bytes) : crlf (13 :: 10 :: r) = .ok r () := by
  unfold crlf
  split <;> simp [opt, char, tag]

omit [Quirks] in
theorem rt_number {n : Nat} {r : Bytes} (hn : n < 4294967296) (hr : Stops isDigit r = true) :
    number (showNat n ++ r) = .ok r n :=
  mapRes_ok (takeWhile1_append (showNat_ne_nil n) (showNat_digits n) hr) (by simp [decVal_showNat, hn])

omit [Quirks] in
theorem rt_number64 {n : Nat} {r : Bytes} (hn : n < 18446744073709551616) (hr : Stops isDigit r = true) :
    number64 (showNat n ++ r) = .ok r n :=
  mapRes_ok (takeWhile1_append (showNat_ne_nil n) (showNat_digits n) hr) (by simp [decVal_showNat, hn])

omit [Quirks] in
theorem rt_nzNumber {n : Nat} {r : Bytes} (h0 : 0 < n) (hn : n < 4294967296) (hr : Stops isDigit r = true) :
    nzNumber (showNat n ++ r) = .ok r n :=
  mapRes_ok (rt_number hn hr) (by simp; omega)

omit [Quirks] in
theorem all_or {s : Bytes} (h : isQuoted s = true) :
    ∀ b ∈ s, isAnyTextCharExceptQuotedSpecials b = true ∨ isQuotedSpecials b = true := by
  intro b hb
  exact (text_or_special b).2 (List.all_eq_true.1 h b hb)

omit [Quirks] in
theorem rt_quoted {s r : Bytes} (hs : isQuoted s = true) : quoted (bytes (encQuoted s) ++ r) = .ok r s := by
  have := escaped_escape (f := isAnyTextCharExceptQuotedSpecials) rfl rfl (s := s) (t := 34 :: r) (all_or hs) rfl
  simp [quoted, encQuoted, dquote, char, this, unescape_escape]

omit [Quirks] in
theorem exists_split {f : UInt8 → Bool} {s : Bytes} (h : s.all f = false) :
    ∃ a b c, s = a ++ b :: c ∧ a.all f = true ∧ f b = false := by
  induction s with
  | nil => simp at h
  | cons x s ih =>
    by_cases hx : f x
    · simp only [List.all_cons, hx, Bool.true_and] at h
      obtain ⟨a, b, c, rfl, h1, h2⟩ := ih h
      exact ⟨x :: a, b, c, rfl, by simp only [List.all_cons, hx, h1, Bool.and_self], h2⟩
    · exact ⟨[], x, s, rfl, rfl, by simpa using hx⟩

omit [Quirks] in
theorem quoted_error {s r : Bytes} (hs : isQuoted s = false) : quoted (bytes (encQuoted s) ++ r) = .error := by
  obtain ⟨a, b, c, rfl, h1, h2⟩ := exists_split hs
  have hb : b ≠ 92 ∧ b ≠ 34 ∧ isAnyTextCharExceptQuotedSpecials b = false :=
    (forall_byte (P := fun b => isTextChar b = false → b ≠ 92 ∧ b ≠ 34 ∧ isAnyTextCharExceptQuotedSpecials b = false) (by decide)) b h2
  have e : escapeQuoted (a ++ b :: c) = escapeQuoted a ++ b :: escapeQuoted c := by
    simp [escapeQuoted_eq, esc1, hb]
  have := escaped_escape (f := isAnyTextCharExceptQuotedSpecials) rfl rfl (s := a)
    (t := b :: (escapeQuoted c ++ 34 :: r)) (all_or h1) (by simp [hb])
  simp [quoted, encQuoted, dquote, char, e, this, hb]

omit [Quirks] in
theorem rt_quotedUtf8 {s r : Bytes} (hs : isUtf8 s = true) : quotedUtf8 (bytes (encQuoted s) ++ r) = .ok r s := by
  have := escaped_escape (f := fun b => !isQuotedSpecials b) rfl rfl (s := s) (t := 34 :: r)
    (by intro b _; cases isQuotedSpecials b <;> simp) rfl
  simp [quotedUtf8, encQuoted, dquote, char, mapRes, this, unescape_escape, isUtf8_escape, hs]

theorem rt_literal {l : Literal} {r : Bytes} (hl : l.valid = true) (hr : r ≠ []) :
    literal (bytes l.enc ++ r) = .ok r l := by
  obtain ⟨d, m⟩ := l
  simp only [Literal.valid, Bool.and_eq_true, decide_eq_true_eq] at hl
  have ht : take d.length (d ++ r) = .ok r d := take_append rfl
  have hn : (d ++ r).isEmpty = false := by cases d <;> simp_all
  cases m
  · have := rt_number (r := 125 :: 13 :: 10 :: (d ++ r)) hl.2 rfl
    simp [literal, literalHdr, Literal.enc, tag, opt, char, this, rt_crlf, literalData, hn, ht]
    rw [if_pos (by simpa using hl.1)]
    rfl
  · have := rt_number (r := 43 :: 125 :: 13 :: 10 :: (d ++ r)) hl.2 rfl
    simp [literal, literalHdr, Literal.enc, tag, opt, char, this, rt_crlf, literalData, hn, ht]
    rw [if_pos (by simpa using hl.1)]
    rfl

theorem rt_literal8 {l : Literal8} {r : Bytes} (hl : l.valid = true) (hr : r ≠ []) :
    literal8 (bytes l.enc ++ r) = .ok r l := by
  obtain ⟨d, m⟩ := l
  simp only [Literal8.valid, decide_eq_true_eq] at hl
  have ht : take d.length (d ++ r) = .ok r d := take_append rfl
  have hn : (d ++ r).isEmpty = false := by cases d <;> simp_all
  cases m
  · have := rt_number (r := 125 :: 13 :: 10 :: (d ++ r)) hl rfl
    simp [literal8, literalHdr, Literal8.enc, tag, opt, char, this, rt_crlf, literalData, hn, ht]
  · have := rt_number (r := 43 :: 125 :: 13 :: 10 :: (d ++ r)) hl rfl
    simp [literal8, literalHdr, Literal8.enc, tag, opt, char, this, rt_crlf, literalData, hn, ht]

omit [Quirks] in
/-- `quoted` has priority over `quotedUtf8`. -/
theorem exists_of_escaped {f : UInt8 → Bool} {x r v : Bytes} (h : escaped f x = .ok r v) : x = v ++ r := by
  fun_induction Imap.escaped f x generalizing v with
  | case1 => simp at h
  | case2 => simp at h
  | case3 b hb => simp at h; simp [← h.1, h.2]
  | case4 b c cs hb ih =>
    obtain ⟨i, w, h1, h2⟩ := Res.andThen_eq_ok.1 h
    simp at h2
    rw [ih (v := w) (by rw [h1, h2.1]), ← h2.2]
    rfl
  | case5 b c cs hb hb' hc ih =>
    obtain ⟨i, w, h1, h2⟩ := Res.andThen_eq_ok.1 h
    simp at h2
    rw [ih (v := w) (by rw [h1, h2.1]), ← h2.2]
    rfl
  | case6 => simp at h
  | case7 => simp at h; simp [← h.1, h.2]

omit [Quirks] in
theorem exists_of_quotedUtf8 {x r s : Bytes} (h : quotedUtf8 x = .ok r s) : x = bytes (encQuoted s) ++ r := by
  unfold quotedUtf8 at h
  simp only [P.bind_apply] at h
  obtain ⟨i1, v1, e1, h⟩ := Res.andThen_eq_ok.1 h
  obtain ⟨i2, v2, e2, h⟩ := Res.andThen_eq_ok.1 h
  obtain ⟨i3, v3, e3, h⟩ := Res.andThen_eq_ok.1 h
  simp at h
  obtain ⟨rfl, rfl⟩ := h
  obtain ⟨e, e4, e5⟩ := exists_of_mapRes e2
  split at e5 <;> simp at e5
  subst e5
  obtain ⟨u, rfl, hu⟩ := escaped_post _ rfl rfl _ _ _ e4
  rw [unescape_escape, exists_of_char e1, exists_of_escaped e4, exists_of_char e3]
  simp [encQuoted]

instance : Canon string fun s => s.valid = true := ⟨by
  intro x r v h
  simp only [string, alt_cons, orElse, P.map_apply] at h
  cases e1 : quoted x <;> rw [e1] at h <;> simp at h
  · rw [← h.2]
    exact Canon.post (p := quoted) _ _ _ e1
  · have lit : ∀ y, (IString.literal <$> literal) x = .ok r y → y.valid = true := by
      intro y hy
      rw [P.map_apply] at hy; cases e3 : literal x <;> rw [e3] at hy <;> simp at hy
      rw [← hy.2]
      exact Canon.post (p := literal) _ _ _ e3
    cases e0 : (Quirks.extUtf8 : Bool) with
    | false =>
      rw [e0, gate_false] at h
      refine lit v ?_
      cases e3 : literal x <;> simp [e3] at h ⊢
      exact h
    | true =>
      rw [e0, gate_true] at h
      cases e2 : quotedUtf8 x <;> simp [e2] at h
      · next r' s =>
        rw [← h.2]
        have h1 := Canon.post (p := quotedUtf8) _ _ _ e2
        simp only [IString.valid, h1, e0, Bool.true_and, Bool.not_eq_true']
        cases hq : isQuoted s with
        | false => rfl
        | true =>
          have := exists_of_quotedUtf8 e2
          rw [this, rt_quoted hq] at e1
          simp at e1
      · refine lit v ?_
        cases e3 : literal x <;> simp [e3] at h ⊢
        exact h⟩

omit [Quirks] in
theorem atomExt_of {v : Bytes} (h : v ≠ [] ∧ v.all isAStringChar = true) : isAtomExt v = true := by
  simp only [isAtomExt, h.2, Bool.and_true, Bool.not_eq_true']
  cases v <;> simp_all

instance : Canon astring fun s => s.valid = true := ⟨by
  unfold astring
  post
  · exact atomExt_of hv
  · exact hv⟩

instance : Canon atom fun s => isAtom s = true := ⟨by
  unfold atom
  post
  simp only [isAtom, hv.2, Bool.and_true, Bool.not_eq_true']
  cases v <;> simp_all⟩

instance : Canon nstring fun s => NString.valid s = true := ⟨by
  unfold nstring
  post
  · exact hv
  · rfl⟩

instance : Canon text fun s => isText s = true := ⟨by
  unfold text
  post
  simp only [isText, hv.2, Bool.and_true, Bool.not_eq_true']
  cases v <;> simp_all⟩

instance : Canon charset fun s => s.valid = true := ⟨by
  unfold charset
  post
  · exact hv
  · exact hv⟩

instance : Canon tagImap fun s => isTagStr s = true := ⟨by
  unfold tagImap
  post
  simp only [isTagStr, hv.2, Bool.and_true, Bool.not_eq_true']
  cases v <;> simp_all⟩

omit [Quirks] in
/-- The first byte of an encoded string. -/
theorem enc_string_head (s : IString) : ∃ b t, bytes s.enc = b :: t ∧ (b = 34 ∨ b = 123) := by
  cases s with
  | literal l =>
    obtain ⟨d, m⟩ := l
    cases m <;> simp [IString.enc, Literal.enc]
  | quoted s => simp [IString.enc, encQuoted]
  | quotedUtf8 s => simp [IString.enc, encQuoted]

theorem rt_string {s : IString} {r : Bytes} (hs : s.valid = true) (hr : r ≠ []) :
    string (bytes s.enc ++ r) = .ok r s := by
  cases s with
  | literal l =>
    have := rt_literal (l := l) hs hr
    have e1 : quoted (bytes l.enc ++ r) = .error := by
      obtain ⟨d, m⟩ := l
      cases m <;> simp [quoted, Literal.enc, dquote, char]
    have e2 : quotedUtf8 (bytes l.enc ++ r) = .error := by
      obtain ⟨d, m⟩ := l
      cases m <;> simp [quotedUtf8, Literal.enc, dquote, char]
    simp [string, orElse, IString.enc, e1, e2, this, gate]
  | quoted s =>
    have := rt_quoted (s := s) (r := r) hs
    simp [string, orElse, IString.enc, this]
  | quotedUtf8 s =>
    simp only [IString.valid, Bool.and_eq_true, Bool.not_eq_true'] at hs
    have e1 := quoted_error (s := s) (r := r) hs.2
    have := rt_quotedUtf8 (s := s) (r := r) hs.1.2
    simp [string, orElse, IString.enc, e1, this, hs.1.1]

theorem rt_nstring {s : NString} {r : Bytes} (hs : s.valid = true) (hr : r ≠ []) :
    nstring (bytes (encNString s) ++ r) = .ok r s := by
  cases s with
  | none =>
    simp [nstring, orElse, encNString, string, quoted, quotedUtf8, literal, literalHdr, dquote, char, tag, value, nil,
      tagNC, gate]
  | some s =>
    have := rt_string (s := s) hs hr
    simp [nstring, orElse, encNString, this]

theorem rt_astring {s : AString} {r : Bytes} (hs : s.valid = true) (hr : Stops isAStringChar r = true) :
    astring (bytes s.enc ++ r) = .ok r s := by
  cases s with
  | atom s =>
    simp only [AString.valid, isAtomExt, Bool.and_eq_true, Bool.not_eq_true', List.isEmpty_eq_false_iff] at hs
    have := takeWhile1_append hs.1 hs.2 hr
    simp [astring, orElse, AString.enc, this]
  | string s =>
    have hr' : r ≠ [] := by rintro rfl; simp at hr
    have := rt_string (s := s) hs hr'
    obtain ⟨b, t, h1, h2⟩ := enc_string_head s
    have e : takeWhile1 isAStringChar (bytes s.enc ++ r) = .error := by
      rw [h1]
      rcases h2 with rfl | rfl <;> rfl
    simp [astring, orElse, AString.enc, e, this]

omit [Quirks] in
theorem rt_atom {s r : Bytes} (hs : isAtom s = true) (hr : Stops isAtomChar r = true) : atom (s ++ r) = .ok r s := by
  simp only [isAtom, Bool.and_eq_true, Bool.not_eq_true', List.isEmpty_eq_false_iff] at hs
  exact takeWhile1_append hs.1 hs.2 hr

omit [Quirks] in
theorem rt_text {s r : Bytes} (hs : isText s = true) (hr : Stops isTextChar r = true) : text (s ++ r) = .ok r s := by
  simp only [isText, Bool.and_eq_true, Bool.not_eq_true', List.isEmpty_eq_false_iff] at hs
  exact takeWhile1_append hs.1 hs.2 hr

omit [Quirks] in
theorem rt_tagImap {s r : Bytes} (hs : isTagStr s = true) (hr : Stops isTagChar r = true) :
    tagImap (s ++ r) = .ok r s := by
  simp only [isTagStr, Bool.and_eq_true, Bool.not_eq_true', List.isEmpty_eq_false_iff] at hs
  exact takeWhile1_append hs.1 hs.2 hr

omit [Quirks] in
theorem rt_charset {s : Charset} {r : Bytes} (hs : s.valid = true) (hr : Stops isAtomChar r = true) :
    charset (bytes s.enc ++ r) = .ok r s := by
  cases s with
  | atom s =>
    have := rt_atom (s := s) hs hr
    simp [charset, orElse, Charset.enc, this]
  | quoted s =>
    have := rt_quoted (s := s) (r := r) hs
    have e : atom (bytes (encQuoted s) ++ r) = .error := by rfl
    simp [charset, orElse, Charset.enc, e, this]

omit [Quirks] in
theorem rt_base64 {d r : Bytes} (hr : Stops (fun b => isBase64Char b || b == 61) r = true) :
    base64 (b64Encode d ++ r) = .ok r d := by
  obtain ⟨cs, pad, h1, h2, h3⟩ := b64Encode_shape d
  have hd := b64_decode_encode d
  rw [h1] at hd ⊢
  obtain ⟨b, bs, rfl, hb⟩ := exists_of_stops hr
  simp only [Bool.or_eq_false_iff, beq_eq_false_iff_ne] at hb
  have hb' : ¬ (61 = b) := fun h => hb.2 h.symm
  refine mapRes_ok ?_ hd
  have hst : Stops isBase64Char (pad ++ b :: bs) = true := by
    rcases h3 with rfl | rfl | rfl
    · simp [hb.1]
    · rfl
    · rfl
  have ht := takeWhile_append h2 hst
  rw [← List.append_assoc] at ht
  have ho : opt (alt [tag b!"==", tag b!"="]) (pad ++ b :: bs) = .ok (b :: bs) (if pad = [] then none else some ()) := by
    rcases h3 with rfl | rfl | rfl
    · simp [opt, orElse, tag, hb']
    · simp [opt, orElse, tag, hb']
    · simp [opt, orElse, tag]
  simp only [recognize, P.bind_apply, ht, Res.andThen_ok, ho]
  rw [List.length_append (as := cs ++ pad), Nat.add_sub_cancel]
  rw [List.take_left']
  rfl

end

end Imap
