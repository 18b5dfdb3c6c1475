import Verif.Core
/-
The validator of UTF-8 in Verif/Core.lean accepts exactly the encodings of lists of characters, as Lean's library defines them
(`String.utf8EncodeChar`, on Unicode scalar values).
-/

namespace Imap

theorem Utf8.step_s0 (b : UInt8) : Utf8.s0.step b =
    if b.toNat < 0x80 then some .s0
    else if 0xc2 ≤ b.toNat ∧ b.toNat ≤ 0xdf then some .c1
    else if b.toNat = 0xe0 then some .e0
    else if b.toNat = 0xed then some .ed
    else if 0xe1 ≤ b.toNat ∧ b.toNat ≤ 0xef then some .c2
    else if b.toNat = 0xf0 then some .f0
    else if 0xf1 ≤ b.toNat ∧ b.toNat ≤ 0xf3 then some .c3
    else if b.toNat = 0xf4 then some .f4
    else none := by
  simp only [Utf8.step, UInt8.lt_iff_toNat_lt, UInt8.le_iff_toNat_le, Bool.and_eq_true, decide_eq_true_eq, beq_iff_eq, ← UInt8.toNat_inj]
  rfl

/-- The bytes that may follow in a state, and the next state. -/
def Utf8.next : Utf8 → Nat × Nat × Utf8
  | .s0 => (1, 0, .s0)
  | .c1 => (0x80, 0xbf, .s0)
  | .c2 => (0x80, 0xbf, .c1)
  | .c3 => (0x80, 0xbf, .c2)
  | .e0 => (0xa0, 0xbf, .c1)
  | .ed => (0x80, 0x9f, .c1)
  | .f0 => (0x90, 0xbf, .c2)
  | .f4 => (0x80, 0x8f, .c2)

theorem Utf8.step_next {s : Utf8} (hs : s ≠ .s0) (b : UInt8) :
    s.step b = if s.next.1 ≤ b.toNat ∧ b.toNat ≤ s.next.2.1 then some s.next.2.2 else none := by
  cases s <;> first | exact absurd rfl hs | skip
  all_goals
    simp only [Utf8.step, UInt8.le_iff_toNat_le, Bool.and_eq_true, decide_eq_true_eq, Utf8.next]
    rfl

theorem Utf8.run_next {s : Utf8} (hs : s ≠ .s0) {bs : Bytes} (h : s.run bs = true) :
    ∃ b r, bs = b :: r ∧ s.next.1 ≤ b.toNat ∧ b.toNat ≤ s.next.2.1 ∧ s.next.2.2.run r = true := by
  cases bs with
  | nil => simp [Utf8.run, hs] at h
  | cons b r =>
    simp only [Utf8.run, Utf8.step_next hs] at h
    by_cases hb : s.next.1 ≤ b.toNat ∧ b.toNat ≤ s.next.2.1
    · exact ⟨b, r, rfl, hb.1, hb.2, by simpa [hb] using h⟩
    · simp [hb] at h

theorem toNat_char {n : Nat} (h : n < 0xd800 ∨ 0xdfff < n ∧ n < 0x110000) : (Char.ofNat n).val.toNat = n := by
  have : n.isValidChar := h
  simp only [Char.ofNat, this, dite_true, Char.ofNatAux, UInt32.toNat]
  rfl

theorem ofNat_byte {n : Nat} {b : UInt8} (h : n = b.toNat) : UInt8.ofNat n = b := by subst h; simp

theorem encode1 {b : UInt8} (h : b.toNat < 0x80) : String.utf8EncodeChar (Char.ofNat b.toNat) = [b] := by
  simp only [String.utf8EncodeChar, toNat_char (n := b.toNat) (by omega)]
  rw [if_pos (by omega), ofNat_byte rfl]

theorem encode2 {b c : UInt8} (h : 0xc2 ≤ b.toNat ∧ b.toNat ≤ 0xdf) (h1 : 0x80 ≤ c.toNat ∧ c.toNat ≤ 0xbf) :
    ∃ x, String.utf8EncodeChar x = [b, c] := by
  have e := toNat_char (n := (b.toNat - 0xc0) * 64 + (c.toNat - 0x80)) (by omega)
  refine ⟨Char.ofNat ((b.toNat - 0xc0) * 64 + (c.toNat - 0x80)), ?_⟩
  simp only [String.utf8EncodeChar, e]
  rw [if_neg (by omega), if_pos (by omega), ofNat_byte (b := b) (by omega), ofNat_byte (b := c) (by omega)]

theorem encode3 {b c d : UInt8} (h : 0xe0 ≤ b.toNat ∧ b.toNat ≤ 0xef) (h1 : 0x80 ≤ c.toNat ∧ c.toNat ≤ 0xbf)
    (h2 : 0x80 ≤ d.toNat ∧ d.toNat ≤ 0xbf) (ha : b.toNat = 0xe0 → 0xa0 ≤ c.toNat) (hb : b.toNat = 0xed → c.toNat ≤ 0x9f) :
    ∃ x, String.utf8EncodeChar x = [b, c, d] := by
  have e := toNat_char (n := (b.toNat - 0xe0) * 4096 + (c.toNat - 0x80) * 64 + (d.toNat - 0x80)) (by omega)
  refine ⟨Char.ofNat ((b.toNat - 0xe0) * 4096 + (c.toNat - 0x80) * 64 + (d.toNat - 0x80)), ?_⟩
  simp only [String.utf8EncodeChar, e]
  rw [if_neg (by omega), if_neg (by omega), if_pos (by omega), ofNat_byte (b := b) (by omega), ofNat_byte (b := c) (by omega),
    ofNat_byte (b := d) (by omega)]

theorem encode4 {b c d f : UInt8} (h : 0xf0 ≤ b.toNat ∧ b.toNat ≤ 0xf4) (h1 : 0x80 ≤ c.toNat ∧ c.toNat ≤ 0xbf)
    (h2 : 0x80 ≤ d.toNat ∧ d.toNat ≤ 0xbf) (h3 : 0x80 ≤ f.toNat ∧ f.toNat ≤ 0xbf)
    (ha : b.toNat = 0xf0 → 0x90 ≤ c.toNat) (hb : b.toNat = 0xf4 → c.toNat ≤ 0x8f) :
    ∃ x, String.utf8EncodeChar x = [b, c, d, f] := by
  have e := toNat_char (n := (b.toNat - 0xf0) * 262144 + (c.toNat - 0x80) * 4096 + (d.toNat - 0x80) * 64 + (f.toNat - 0x80)) (by omega)
  refine ⟨Char.ofNat ((b.toNat - 0xf0) * 262144 + (c.toNat - 0x80) * 4096 + (d.toNat - 0x80) * 64 + (f.toNat - 0x80)), ?_⟩
  simp only [String.utf8EncodeChar, e]
  rw [if_neg (by omega), if_neg (by omega), if_neg (by omega), ofNat_byte (b := b) (by omega), ofNat_byte (b := c) (by omega),
    ofNat_byte (b := d) (by omega), ofNat_byte (b := f) (by omega)]

/-- The first character of valid UTF-8. -/
theorem Utf8.run_char {bs : Bytes} (h : Utf8.s0.run bs = true) (hn : bs ≠ []) :
    ∃ x r, bs = String.utf8EncodeChar x ++ r ∧ Utf8.s0.run r = true ∧ r.length < bs.length := by
  obtain ⟨b, bs, rfl⟩ := List.exists_cons_of_ne_nil hn
  simp only [Utf8.run, Utf8.step_s0] at h
  have done {bs r : Bytes} {w : Bytes} (hx : ∃ x, String.utf8EncodeChar x = b :: w) (e : bs = w ++ r) (hr : Utf8.s0.run r = true) :
      ∃ x r, b :: bs = String.utf8EncodeChar x ++ r ∧ Utf8.s0.run r = true ∧ r.length < (b :: bs).length := by
    obtain ⟨x, hx⟩ := hx
    exact ⟨x, r, by rw [hx, e]; rfl, hr, by rw [e]; simp; omega⟩
  split at h
  · rename_i s' hs
    split at hs
    · cases hs
      exact done ⟨_, encode1 (by assumption)⟩ (w := []) rfl h
    split at hs
    · cases hs
      obtain ⟨c, r, rfl, h1, h2, h⟩ := run_next (by decide) h
      exact done (encode2 (by assumption) ⟨h1, h2⟩) (w := [c]) rfl h
    split at hs
    · cases hs
      obtain ⟨c, r, rfl, h1, h2, h⟩ := run_next (by decide) h
      obtain ⟨d, r, rfl, h3, h4, h⟩ := run_next (by decide) h
      simp only [Utf8.next] at h1 h2 h3 h4
      exact done (encode3 (by omega) (by omega) (by omega) (by omega) (by omega)) (w := [c, d]) rfl h
    split at hs
    · cases hs
      obtain ⟨c, r, rfl, h1, h2, h⟩ := run_next (by decide) h
      obtain ⟨d, r, rfl, h3, h4, h⟩ := run_next (by decide) h
      simp only [Utf8.next] at h1 h2 h3 h4
      exact done (encode3 (by omega) (by omega) (by omega) (by omega) (by omega)) (w := [c, d]) rfl h
    split at hs
    · cases hs
      obtain ⟨c, r, rfl, h1, h2, h⟩ := run_next (by decide) h
      obtain ⟨d, r, rfl, h3, h4, h⟩ := run_next (by decide) h
      simp only [Utf8.next] at h1 h2 h3 h4
      exact done (encode3 (by omega) (by omega) (by omega) (by omega) (by omega)) (w := [c, d]) rfl h
    split at hs
    · cases hs
      obtain ⟨c, r, rfl, h1, h2, h⟩ := run_next (by decide) h
      obtain ⟨d, r, rfl, h3, h4, h⟩ := run_next (by decide) h
      obtain ⟨f, r, rfl, h5, h6, h⟩ := run_next (by decide) h
      simp only [Utf8.next] at h1 h2 h3 h4 h5 h6
      exact done (encode4 (by omega) (by omega) (by omega) (by omega) (by omega) (by omega)) (w := [c, d, f]) rfl h
    split at hs
    · cases hs
      obtain ⟨c, r, rfl, h1, h2, h⟩ := run_next (by decide) h
      obtain ⟨d, r, rfl, h3, h4, h⟩ := run_next (by decide) h
      obtain ⟨f, r, rfl, h5, h6, h⟩ := run_next (by decide) h
      simp only [Utf8.next] at h1 h2 h3 h4 h5 h6
      exact done (encode4 (by omega) (by omega) (by omega) (by omega) (by omega) (by omega)) (w := [c, d, f]) rfl h
    split at hs
    · cases hs
      obtain ⟨c, r, rfl, h1, h2, h⟩ := run_next (by decide) h
      obtain ⟨d, r, rfl, h3, h4, h⟩ := run_next (by decide) h
      obtain ⟨f, r, rfl, h5, h6, h⟩ := run_next (by decide) h
      simp only [Utf8.next] at h1 h2 h3 h4 h5 h6
      exact done (encode4 (by omega) (by omega) (by omega) (by omega) (by omega) (by omega)) (w := [c, d, f]) rfl h
    · cases hs
  · cases h

theorem Utf8.step_some {s s' : Utf8} (hs : s ≠ .s0) {n : Nat} (h : s.next.1 ≤ n) (h' : n ≤ s.next.2.1) (r : Bytes) (e : s.next.2.2 = s') :
    s.run (UInt8.ofNat n :: r) = s'.run r := by
  have hn : n < 256 := Nat.lt_of_le_of_lt h' (by cases s <;> decide)
  have : (UInt8.ofNat n).toNat = n := by simp [UInt8.toNat_ofNat', Nat.mod_eq_of_lt hn]
  simp only [Utf8.run, Utf8.step_next hs, this, h, h', and_self, if_true, e]

/-- The validator accepts the encoding of a character. -/
theorem Utf8.run_encode (x : Char) (r : Bytes) : Utf8.s0.run (String.utf8EncodeChar x ++ r) = Utf8.s0.run r := by
  have hv : x.val.toNat < 0xd800 ∨ 0xdfff < x.val.toNat ∧ x.val.toNat < 0x110000 := x.valid
  simp only [String.utf8EncodeChar]
  generalize x.val.toNat = v at hv
  have lead {n : Nat} {bs : Bytes} (h : n < 256) (s : Utf8) (hs : Utf8.s0.step (UInt8.ofNat n) = some s) :
      Utf8.s0.run (UInt8.ofNat n :: bs) = s.run bs := by simp only [Utf8.run, hs]
  have toNat {n : Nat} (h : n < 256) : (UInt8.ofNat n).toNat = n := by simp [UInt8.toNat_ofNat', Nat.mod_eq_of_lt h]
  split
  · rw [List.singleton_append, lead (by omega) .s0]
    rw [step_s0, toNat (by omega), if_pos (by omega)]
  split
  · simp only [List.cons_append, List.nil_append]
    rw [lead (by omega) .c1, step_some (s' := .s0) (by decide) (by simp only [next]; omega) (by simp only [next]; omega) _ rfl]
    rw [step_s0, toNat (by omega), if_neg (by omega), if_pos (by omega)]
  split
  · simp only [List.cons_append, List.nil_append]
    have hb : v / 4096 % 16 + 0xe0 < 256 := by omega
    by_cases h1 : v / 4096 = 0
    · rw [lead hb .e0, step_some (s' := .c1) (by decide) (by simp only [next]; omega) (by simp only [next]; omega) _ rfl,
        step_some (s' := .s0) (by decide) (by simp only [next]; omega) (by simp only [next]; omega) _ rfl]
      rw [step_s0, toNat hb, if_neg (by omega), if_neg (by omega), if_pos (by omega)]
    by_cases h2 : v / 4096 = 13
    · rw [lead hb .ed, step_some (s' := .c1) (by decide) (by simp only [next]; omega) (by simp only [next]; omega) _ rfl,
        step_some (s' := .s0) (by decide) (by simp only [next]; omega) (by simp only [next]; omega) _ rfl]
      rw [step_s0, toNat hb, if_neg (by omega), if_neg (by omega), if_neg (by omega), if_pos (by omega)]
    · rw [lead hb .c2, step_some (s' := .c1) (by decide) (by simp only [next]; omega) (by simp only [next]; omega) _ rfl,
        step_some (s' := .s0) (by decide) (by simp only [next]; omega) (by simp only [next]; omega) _ rfl]
      rw [step_s0, toNat hb, if_neg (by omega), if_neg (by omega), if_neg (by omega), if_neg (by omega), if_pos (by omega)]
  · simp only [List.cons_append, List.nil_append]
    have hb : v / 262144 % 8 + 0xf0 < 256 := by omega
    have tail (s : Utf8) (hs : s ≠ .s0) (hn : s.next.2.2 = .c2) (h1 : s.next.1 ≤ v / 4096 % 64 + 0x80) (h2 : v / 4096 % 64 + 0x80 ≤ s.next.2.1) :
        s.run (UInt8.ofNat (v / 4096 % 64 + 0x80) :: UInt8.ofNat (v / 64 % 64 + 0x80) :: UInt8.ofNat (v % 64 + 0x80) :: r) = Utf8.s0.run r := by
      rw [step_some (s' := .c2) hs h1 h2 _ hn,
        step_some (s' := .c1) (by decide) (by simp only [next]; omega) (by simp only [next]; omega) _ rfl,
        step_some (s' := .s0) (by decide) (by simp only [next]; omega) (by simp only [next]; omega) _ rfl]
    by_cases h1 : v / 262144 = 0
    · rw [lead hb .f0, tail .f0 (by decide) rfl (by simp only [next]; omega) (by simp only [next]; omega)]
      rw [step_s0, toNat hb, if_neg (by omega), if_neg (by omega), if_neg (by omega), if_neg (by omega), if_neg (by omega), if_pos (by omega)]
    by_cases h2 : v / 262144 = 4
    · rw [lead hb .f4, tail .f4 (by decide) rfl (by simp only [next]; omega) (by simp only [next]; omega)]
      rw [step_s0, toNat hb, if_neg (by omega), if_neg (by omega), if_neg (by omega), if_neg (by omega), if_neg (by omega), if_neg (by omega),
        if_neg (by omega), if_pos (by omega)]
    · rw [lead hb .c3, tail .c3 (by decide) rfl (by simp only [next]; omega) (by simp only [next]; omega)]
      rw [step_s0, toNat hb, if_neg (by omega), if_neg (by omega), if_neg (by omega), if_neg (by omega), if_neg (by omega), if_neg (by omega),
        if_pos (by omega)]

/-- The validator accepts exactly the encodings of lists of characters. -/
theorem isUtf8_iff (bs : Bytes) : isUtf8 bs = true ↔ ∃ cs : List Char, bs = cs.flatMap String.utf8EncodeChar := by
  constructor
  · intro h
    induction hn : bs.length using Nat.strongRecOn generalizing bs with
    | _ n ih =>
      subst hn
      by_cases hb : bs = []
      · exact ⟨[], hb⟩
      · obtain ⟨x, r, rfl, hr, hl⟩ := Utf8.run_char h hb
        obtain ⟨cs, rfl⟩ := ih _ hl r hr rfl
        exact ⟨x :: cs, rfl⟩
  · rintro ⟨cs, rfl⟩
    induction cs with
    | nil => rfl
    | cons x cs ih =>
      rw [List.flatMap_cons]
      exact (Utf8.run_encode x _).trans ih

end Imap
