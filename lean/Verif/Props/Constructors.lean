import Verif.ConstructorsSpec
import Verif.Props.RoundTrip
import Verif.Props.Strings
/-
C25: constructors of strings. C26: mailboxes. C37: constructors of commands. C38: names of commands.
-/
set_option maxRecDepth 10000

namespace Imap

open Spec

/-! ### Validation -/

theorem all_or_firstBad (c : UInt8 → Prop) (v : Bytes) : (∀ b ∈ v, c b) ∨ ∃ b i, FirstBad c v b i := by
  induction v with
  | nil => exact .inl (by simp)
  | cons a v ih =>
    by_cases ha : c a
    · rcases ih with h | ⟨b, i, pre, post, rfl, hi, hp, hb⟩
      · exact .inl (by simpa [ha] using h)
      · refine .inr ⟨b, i + 1, a :: pre, post, rfl, by simp [hi], ?_, hb⟩
        intro x hx
        rcases List.mem_cons.1 hx with rfl | hx
        · exact ha
        · exact hp x hx
    · exact .inr ⟨a, 0, [], v, rfl, rfl, by simp, ha⟩

theorem position_none {p : UInt8 → Bool} {v : Bytes} (h : ∀ b ∈ v, p b = false) : position p v = none := by
  induction v with
  | nil => rfl
  | cons a v ih => simp [position, h a (by simp), ih fun b hb => h b (by simp [hb])]

theorem position_some {p : UInt8 → Bool} {pre post : Bytes} {b : UInt8} (h : ∀ b ∈ pre, p b = false) (hb : p b = true) :
    position p (pre ++ b :: post) = some pre.length := by
  induction pre with
  | nil => simp [position, hb]
  | cons a v ih => simp [position, h a (by simp), ih fun b hb => h b (by simp [hb])]

theorem validateBytes_ok {f : UInt8 → Bool} {c : UInt8 → Prop} (hc : ∀ b, f b = true ↔ c b) {v : Bytes} (h : ∀ b ∈ v, c b) :
    validateBytes f v = .ok () := by
  rw [validateBytes, position_none (fun b hb => by simp [(hc b).2 (h b hb)])]

theorem validateBytes_err {f : UInt8 → Bool} {c : UInt8 → Prop} (hc : ∀ b, f b = true ↔ c b) {v : Bytes} {b : UInt8} {i : Nat}
    (h : FirstBad c v b i) : validateBytes f v = .err (.invalidByteAt b i) := by
  obtain ⟨pre, post, rfl, rfl, hp, hb⟩ := h
  have hb : f b = false := by simpa [← hc b] using hb
  rw [validateBytes, position_some (fun b hb => by simp [(hc b).2 (hp b hb)]) (by simp [hb])]
  simp

theorem Made.bind_ok {ε α β : Type} (a : α) (f : α → Made ε β) : (Made.ok a >>= f) = f a := rfl
theorem Made.bind_err {ε α β : Type} (e : ε) (f : α → Made ε β) : (Made.err e >>= f) = .err e := rfl

theorem validates_of {f : UInt8 → Bool} {c : UInt8 → Prop} (hc : ∀ b, f b = true ↔ c b) {α : Type} {mk : Bytes → α}
    {g : Bytes → Made ValidationError α} (hg : ∀ v, (∀ b ∈ v, c b) → g v = .ok (mk v)) :
    Validates c mk fun v => validateBytes f v >>= fun _ => g v := by
  intro v
  refine ⟨fun h => ?_, fun b i h => ?_⟩
  · simp only [validateBytes_ok hc h, Made.bind_ok, hg v h]
  · simp only [validateBytes_err hc h, Made.bind_err]

theorem validates1_of {f : UInt8 → Bool} {c : UInt8 → Prop} (hc : ∀ b, f b = true ↔ c b) {α : Type} {mk : Bytes → α}
    {g : Bytes → Made ValidationError α} (hg : ∀ v, (∀ b ∈ v, c b) → g v = .ok (mk v)) :
    Validates1 c mk fun v => validateBytes1 f v >>= fun _ => g v := by
  refine ⟨rfl, fun v => ⟨fun h => ?_, fun b i h => ?_⟩⟩
  · have : v.isEmpty = false := by simpa using h.1
    simp only [validateBytes1, this, Bool.false_eq_true, if_false, validateBytes_ok hc h.2, Made.bind_ok, hg v h.2]
  · have : v.isEmpty = false := by obtain ⟨pre, post, rfl, -⟩ := h; simp
    simp only [validateBytes1, this, Bool.false_eq_true, if_false, validateBytes_err hc h, Made.bind_err]

theorem fromUtf8Unwrap_ok {v : Bytes} (h : ∀ b ∈ v, b.toNat < 128) : fromUtf8Unwrap v = .ok v := by
  rw [fromUtf8Unwrap, isUtf8_of_ascii (fun b hb => UInt8.lt_iff_toNat_lt.2 (h b hb))]
  rfl

theorem aStringChar_ascii : ∀ b : UInt8, AStringChar b → b.toNat < 128 := by
  intro b h
  rw [← aStringChar_iff] at h
  revert b
  exact forall_byte (by decide)

/-! ### C25 -/

/-- C25 for `Atom`: accepts exactly the atoms, and keeps the content. -/
theorem C25_atom : Validates1 AtomChar id Atom.tryFrom :=
  validates1_of atomChar_iff fun _ h => fromUtf8Unwrap_ok fun b hb => (h b hb).1

/-- C25 for `AtomExt`. -/
theorem C25_atomExt : Validates1 AStringChar id AtomExt.tryFrom :=
  validates1_of aStringChar_iff fun _ h => fromUtf8Unwrap_ok fun b hb => aStringChar_ascii b (h b hb)

/-- C25 for `Tag`. -/
theorem C25_tag : Validates1 TagChar id Tag.tryFrom :=
  validates1_of (fun b => by rw [← tagChar_iff b]; simp [isTagChar, bne]) fun _ h =>
    fromUtf8Unwrap_ok fun b hb => aStringChar_ascii b (h b hb).1

/-- C25 for `Text`. -/
theorem C25_text : Validates1 TextChar id Text.tryFrom :=
  validates1_of textChar_iff fun _ h => fromUtf8Unwrap_ok fun b hb => (h b hb).1

/-- C25 for `ListCharString`. -/
theorem C25_listCharString : Validates1 ListChar id ListCharString.tryFrom := validates1_of listChar_iff fun _ _ => rfl

/-- C25 for `Quoted`. -/
theorem C25_quoted : Validates TextChar id Quoted.tryFrom :=
  validates_of textChar_iff fun _ h => fromUtf8Unwrap_ok fun b hb => (h b hb).1

/-- C25 for `Literal`: accepts everything without NUL, and makes a synchronizing literal. -/
theorem C25_literal : Validates NotNul (fun v => ⟨v, .sync⟩) Literal.tryFrom :=
  validates_of (fun b => by simp [isChar8, NotNul]) fun _ _ => rfl

/-- C25 for `QuotedChar`: accepts exactly the text characters. -/
theorem C25_quotedChar (c : Char) (b : UInt8) :
    QuotedChar.tryFrom c = .ok b ↔ c.toNat < 128 ∧ b.toNat = c.toNat ∧ TextChar b := by
  have key : ∀ b : UInt8, b.toNat < 128 →
      ((isAnyTextCharExceptQuotedSpecials b || b == 92 || b == 34) = true ↔ TextChar b) := by
    unfold TextChar
    exact forall_byte (by decide)
  unfold QuotedChar.tryFrom
  by_cases h : c.toNat < 128
  · have hn : (UInt8.ofNat c.toNat).toNat = c.toNat := by simp; omega
    have e1 : (c == '\\') = (UInt8.ofNat c.toNat == 92) := by
      rw [Bool.eq_iff_iff, beq_iff_eq, beq_iff_eq, ← UInt8.toNat_inj, hn, Char.ext_iff, ← UInt32.toNat_inj]
      rfl
    have e2 : (c == '"') = (UInt8.ofNat c.toNat == 34) := by
      rw [Bool.eq_iff_iff, beq_iff_eq, beq_iff_eq, ← UInt8.toNat_inj, hn, Char.ext_iff, ← UInt32.toNat_inj]
      rfl
    have := key (UInt8.ofNat c.toNat) (by omega)
    rw [e1, e2]
    simp only [h, decide_true, Bool.true_and]
    split
    · rename_i hh
      constructor
      · intro e
        cases e
        exact ⟨trivial, hn, this.1 hh⟩
      · rintro ⟨-, hb, -⟩
        rw [← hb]
        simp
    · rename_i hh
      refine ⟨fun e => (by cases e), ?_⟩
      rintro ⟨-, hb, ht⟩
      rw [← hb] at this hh
      simp only [UInt8.ofNat_toNat] at this hh
      exact absurd (this.2 ht) hh
  · simp [h]

/-- C25 for `IString`: quoted if possible, otherwise a literal; the only strings that are rejected are those with a NUL. -/
theorem C25_istring (v : Bytes) :
    ((∀ b ∈ v, TextChar b) → IString.tryFrom v = .ok (.quoted v)) ∧
    ((∃ b ∈ v, ¬ TextChar b) → 0 ∉ v → IString.tryFrom v = .ok (.literal ⟨v, .sync⟩)) ∧
    ∀ b i, FirstBad NotNul v b i → IString.tryFrom v = .err (.invalidByteAt b i) := by
  have hnt : (∃ b ∈ v, ¬ TextChar b) → ∃ e, Quoted.tryFrom v = .err e := by
    rintro ⟨b, hb, hbt⟩
    rcases all_or_firstBad TextChar v with h | ⟨b, i, h⟩
    · exact absurd (h b hb) hbt
    · exact ⟨_, (C25_quoted v).2 b i h⟩
  refine ⟨fun h => ?_, fun h h0 => ?_, fun b i h => ?_⟩
  · simp only [IString.tryFrom, (C25_quoted v).1 h]
    rfl
  · obtain ⟨e, he⟩ := hnt h
    simp only [IString.tryFrom, he, (C25_literal v).1 fun b hb e => h0 (e ▸ hb)]
    rfl
  · have hl := (C25_literal v).2 b i h
    obtain ⟨pre, post, rfl, -, -, hb⟩ := h
    obtain ⟨e, he⟩ := hnt ⟨b, by simp, fun ht => hb ht.2.1⟩
    simp only [IString.tryFrom, he, hl]
    rfl

/-- C25 for `NString`: never NIL, otherwise as `IString`. -/
theorem C25_nstring (v : Bytes) :
    ((∀ b ∈ v, TextChar b) → NString.tryFrom v = .ok (some (.quoted v))) ∧
    ((∃ b ∈ v, ¬ TextChar b) → 0 ∉ v → NString.tryFrom v = .ok (some (.literal ⟨v, .sync⟩))) ∧
    ∀ b i, FirstBad NotNul v b i → NString.tryFrom v = .err (.invalidByteAt b i) := by
  obtain ⟨h1, h2, h3⟩ := C25_istring v
  refine ⟨fun h => ?_, fun h h0 => ?_, fun b i h => ?_⟩
  · simp only [NString.tryFrom, h1 h]; rfl
  · simp only [NString.tryFrom, h2 h h0]; rfl
  · simp only [NString.tryFrom, h3 b i h]; rfl

theorem atomExt_err {v : Bytes} (h : ¬ Str1 AStringChar v) : ∃ e, AtomExt.tryFrom v = .err e := by
  rcases all_or_firstBad AStringChar v with hv | ⟨b, i, hb⟩
  · by_cases he : v = []
    · subst he; exact ⟨_, C25_atomExt.1⟩
    · exact absurd ⟨he, hv⟩ h
  · exact ⟨_, (C25_atomExt.2 v).2 b i hb⟩

/-- C25 for `AString`: an atom if possible, otherwise quoted if possible, otherwise a literal; the only strings that are rejected are
those with a NUL. -/
theorem C25_astring (v : Bytes) :
    (Str1 AStringChar v → AString.tryFrom v = .ok (.atom v)) ∧
    (¬ Str1 AStringChar v → (∀ b ∈ v, TextChar b) → AString.tryFrom v = .ok (.string (.quoted v))) ∧
    ((∃ b ∈ v, ¬ TextChar b) → 0 ∉ v → AString.tryFrom v = .ok (.string (.literal ⟨v, .sync⟩))) ∧
    ∀ b i, FirstBad NotNul v b i → AString.tryFrom v = .err (.invalidByteAt b i) := by
  obtain ⟨h1, h2, h3⟩ := C25_istring v
  have key : ∀ b : UInt8, AStringChar b → TextChar b := by
    intro b h
    rw [← aStringChar_iff] at h
    rw [← textChar_iff]
    revert b
    exact forall_byte (by decide)
  refine ⟨fun h => ?_, fun hn h => ?_, fun h h0 => ?_, fun b i h => ?_⟩
  · simp only [AString.tryFrom, (C25_atomExt.2 v).1 h]; rfl
  · obtain ⟨e, he⟩ := atomExt_err hn
    simp only [AString.tryFrom, he, h1 h]; rfl
  · obtain ⟨e, he⟩ := atomExt_err (v := v) fun hs => by
      obtain ⟨b, hb, hbt⟩ := h
      exact hbt (key b (hs.2 b hb))
    simp only [AString.tryFrom, he, h2 h h0]; rfl
  · have h3 := h3 b i h
    obtain ⟨pre, post, rfl, -, -, hb⟩ := h
    obtain ⟨e, he⟩ := atomExt_err (v := pre ++ b :: post) fun hs => hb (key b (hs.2 b (by simp))).2.1
    simp only [AString.tryFrom, he, h3]; rfl

/-- C25 for `Charset`: an atom if possible, otherwise quoted; strings that are not text are rejected. -/
theorem C25_charset (v : Bytes) :
    (IsAtom v → Charset.tryFrom v = .ok (.atom v)) ∧
    (¬ IsAtom v → (∀ b ∈ v, TextChar b) → Charset.tryFrom v = .ok (.quoted v)) ∧
    ∀ b i, FirstBad TextChar v b i → Charset.tryFrom v = .err (.invalidByteAt b i) := by
  have herr : ¬ IsAtom v → ∃ e, Atom.tryFrom v = .err e := by
    intro h
    rcases all_or_firstBad AtomChar v with hv | ⟨b, i, hb⟩
    · by_cases he : v = []
      · subst he; exact ⟨_, C25_atom.1⟩
      · exact absurd ⟨he, hv⟩ h
    · exact ⟨_, (C25_atom.2 v).2 b i hb⟩
  have key : ∀ b : UInt8, AtomChar b → TextChar b := by
    intro b h
    rw [← atomChar_iff] at h
    rw [← textChar_iff]
    revert b
    exact forall_byte (by decide)
  refine ⟨fun h => ?_, fun hn h => ?_, fun b i h => ?_⟩
  · simp only [Charset.tryFrom, (C25_atom.2 v).1 h]; rfl
  · obtain ⟨e, he⟩ := herr hn
    simp only [Charset.tryFrom, he, (C25_quoted v).1 h]; rfl
  · have h3 := (C25_quoted v).2 b i h
    obtain ⟨pre, post, rfl, -, -, hb⟩ := h
    obtain ⟨e, he⟩ := herr fun hs => hb (key b (hs.2 b (by simp)))
    simp only [Charset.tryFrom, he, h3]; rfl

/-- C25 for `Vec1`, `Vec2` and so on. -/
theorem C25_vecN {α : Type} (n : Nat) (l : List α) :
    (n ≤ l.length → VecN.tryFrom n l = .ok l) ∧ (l.length < n → VecN.tryFrom n l = .err (.notEnough n)) := by
  unfold VecN.tryFrom
  constructor <;> intro h
  · rw [if_neg (by omega)]
  · rw [if_pos h]

/-- C25: for each byte string that can be sent there is an `AString` with this content, which the decoder accepts. -/
theorem C25_sendable [Quirks] {v : Bytes} (h : Sendable v) : ∃ s, AString.tryFrom v = .ok s ∧ s.content = v ∧ AString.Inv .rt s := by
  obtain ⟨h1, h2, h3, h4⟩ := C25_astring v
  by_cases ha : Str1 AStringChar v
  · exact ⟨_, h1 ha, rfl, ha⟩
  · rcases all_or_firstBad TextChar v with hv | ⟨b, i, pre, post, rfl, -, -, hb⟩
    · exact ⟨_, h2 ha hv, rfl, hv⟩
    · exact ⟨_, h3 ⟨b, by simp, hb⟩ h.1, rfl, ⟨h.1, fun _ => h.2⟩⟩

/-- C25: no conversion to `AString` panics. -/
theorem C25_total [Quirks] (v : Bytes) : (∃ s, AString.tryFrom v = .ok s ∧ s.content = v ∧ AString.Inv .inv s) ∨
    ∃ i, FirstBad NotNul v 0 i ∧ AString.tryFrom v = .err (.invalidByteAt 0 i) := by
  obtain ⟨h1, h2, h3, h4⟩ := C25_astring v
  rcases all_or_firstBad NotNul v with h0 | ⟨b, i, hb⟩
  · have h0 : 0 ∉ v := fun h => h0 0 h rfl
    refine .inl ?_
    by_cases ha : Str1 AStringChar v
    · exact ⟨_, h1 ha, rfl, ha⟩
    · rcases all_or_firstBad TextChar v with hv | ⟨b, i, pre, post, rfl, -, -, hb⟩
      · exact ⟨_, h2 ha hv, rfl, hv⟩
      · exact ⟨_, h3 ⟨b, by simp, hb⟩ h0, rfl, ⟨h0, fun h => nomatch h⟩⟩
  · have : b = 0 := by
      obtain ⟨-, -, -, -, -, hb⟩ := hb
      simpa [NotNul] using hb
    subst this
    exact .inr ⟨i, hb, h4 0 i hb⟩

/-! ### C26 -/

theorem isInbox_iff {v : Bytes} : eqIC v b!"inbox" = true ↔ IsInbox v := by
  rw [eqIC_iff]
  exact Iff.rfl

theorem ofAString_names (s : AString) : Names (Mailbox.ofAString s) s.content := by
  unfold Mailbox.ofAString
  by_cases h : eqIC s.content b!"inbox" = true
  · rw [if_pos h]
    exact .inl ⟨isInbox_iff.1 h, rfl⟩
  · rw [if_neg h]
    exact .inr ⟨fun e => h (isInbox_iff.2 e), s, rfl, rfl⟩

theorem Names.unique {m m' : Mailbox} {s : AString} (h : Names m s.content) (hm : m = .inbox ∨ m = .other s)
    (h' : Names m' s.content) (hm' : m' = .inbox ∨ m' = .other s) : m = m' := by
  rcases h with ⟨hi, rfl⟩ | ⟨hi, t, rfl, ht⟩ <;> rcases h' with ⟨hi', rfl⟩ | ⟨hi', t', rfl, ht'⟩
  · rfl
  · exact absurd hi hi'
  · exact absurd hi' hi
  · rcases hm with hm | hm <;> rcases hm' with hm' | hm' <;> simp_all

/-- C26 for `From<AString>`: never panics; each variant of INBOX, in each representation, becomes `Inbox`, and any other string is kept
as it is. -/
theorem C26_fromAString (s : AString) :
    (IsInbox s.content → Mailbox.fromAString s = some .inbox) ∧
    (¬ IsInbox s.content → Mailbox.fromAString s = some (.other s)) := by
  rw [Mailbox.fromAString_eq, Mailbox.ofAString]
  refine ⟨fun h => ?_, fun h => ?_⟩
  · rw [if_pos (isInbox_iff.2 h)]
  · rw [if_neg fun e => h (isInbox_iff.1 e)]

/-- C26 for `TryFrom` bytes: the mailbox that the name denotes; the only names that are rejected are those with a NUL. -/
theorem C26_tryFrom [Quirks] (v : Bytes) :
    (0 ∉ v → ∃ m, Mailbox.tryFrom v = .ok m ∧ Names m v ∧ Mailbox.Inv .inv m ∧ (v.length < 2 ^ 32 → Mailbox.Inv .rt m)) ∧
    ∀ i, FirstBad NotNul v 0 i → Mailbox.tryFrom v = .err (.invalidByteAt 0 i) := by
  refine ⟨fun h0 => ?_, fun i h => ?_⟩
  · rcases C25_total v with ⟨s, hs, hc, hi⟩ | ⟨i, ⟨pre, post, rfl, -⟩, -⟩
    · have hN := ofAString_names s
      refine ⟨Mailbox.ofAString s, ?_, hc ▸ hN, ?_, fun hl => ?_⟩
      · simp only [Mailbox.tryFrom, hs, Made.bind_ok, Mailbox.fromAString_eq]
      · unfold Mailbox.ofAString
        split
        · trivial
        · rename_i hne
          refine ⟨hi, ?_⟩
          intro e
          exact hne (isInbox_iff.2 (List.mem_singleton.1 e))
      · unfold Mailbox.ofAString
        split
        · trivial
        · rename_i hne
          obtain ⟨s', hs', -, hi'⟩ := C25_sendable ⟨h0, hl⟩
          have : s = s' := by rw [hs] at hs'; cases hs'; rfl
          subst this
          refine ⟨hi', ?_⟩
          intro e
          exact hne (isInbox_iff.2 (List.mem_singleton.1 e))
    · simp at h0
  · simp only [Mailbox.tryFrom, (C25_astring v).2.2.2 0 i h, Made.bind_err]

/-- C26 for `MailboxOther`: rejects exactly the variants of INBOX and names with a NUL. -/
theorem C26_mailboxOther [Quirks] (v : Bytes) :
    (0 ∉ v → IsInbox v → MailboxOther.tryFromBytes v = .err .reserved) ∧
    (0 ∉ v → ¬ IsInbox v → ∃ s, MailboxOther.tryFromBytes v = .ok s ∧ s.content = v) ∧
    ∀ i, FirstBad NotNul v 0 i → MailboxOther.tryFromBytes v = .err (.literal (.invalidByteAt 0 i)) := by
  have hs : 0 ∉ v → ∃ s, AString.tryFrom v = .ok s ∧ s.content = v := by
    intro h0
    rcases C25_total v with ⟨s, hs, hc, hi⟩ | ⟨i, ⟨pre, post, rfl, -⟩, -⟩
    · exact ⟨s, hs, hc⟩
    · simp at h0
  refine ⟨fun h0 h => ?_, fun h0 h => ?_, fun i h => ?_⟩
  · obtain ⟨s, hs, rfl⟩ := hs h0
    simp only [MailboxOther.tryFromBytes, hs, Made.mapErr, Made.bind_ok, isInbox_iff.2 h, if_true]
  · obtain ⟨s, hs, rfl⟩ := hs h0
    refine ⟨s, ?_, rfl⟩
    simp only [MailboxOther.tryFromBytes, hs, Made.mapErr, Made.bind_ok]
    rw [if_neg fun e => h (isInbox_iff.1 e)]
  · simp only [MailboxOther.tryFromBytes, (C25_astring v).2.2.2 0 i h, Made.mapErr, Made.bind_err]

section Decoder

variable [Quirks]

/-- C26 for the decoder: the mailbox of a command or response is the one that the name denotes, whatever the representation of the
name. -/
theorem C26_decode (x rem : Bytes) (m : Mailbox) :
    mailbox x = .ok rem m ↔ ∃ s, astring x = .ok rem s ∧ Names m s.content ∧ (m = .inbox ∨ m = .other s) := by
  have hm : ∀ s, Mailbox.ofAString s = .inbox ∨ Mailbox.ofAString s = .other s := by
    intro s
    unfold Mailbox.ofAString
    split <;> simp
  unfold mailbox
  simp only [P.map_apply]
  constructor
  · cases h : astring x with
    | ok r s =>
      intro e
      simp only [Res.andThen_ok] at e
      cases e
      exact ⟨s, rfl, ofAString_names s, hm s⟩
    | _ => intro e; simp at e
  · rintro ⟨s, hs, hn, hx⟩
    simp only [hs, Res.andThen_ok]
    rw [Names.unique hn hx (ofAString_names s) (hm s)]

/-- C26 from end to end: whatever name the user selects, the server decodes the mailbox that the name denotes. -/
theorem C26_select (tag v rest : Bytes) (ht : Str1 TagChar tag) (h : Sendable v) :
    ∃ c m, CommandBody.mkSelect (Mailbox.tryFrom v) = .ok c ∧ Names m v ∧
      Codec.command.decode (dump (Codec.command.encode ⟨tag, c⟩) ++ rest) = .ok rest ⟨tag, .select m []⟩ := by
  obtain ⟨m, hm, hn, -, hi⟩ := (C26_tryFrom v).1 h.1
  refine ⟨.select m [], m, by rw [hm]; rfl, hn, ?_⟩
  exact round_trip .command ⟨tag, .select m []⟩ ⟨ht, hi h.2, by simp [All]⟩ rest

/-! ### C37 -/

/-- C25 for `ListMailbox`: a token if possible, otherwise quoted if possible, otherwise a literal; the content is kept. -/
theorem C25_listMailbox (v : Bytes) :
    (Str1 ListChar v → ListMailbox.tryFrom v = .ok (.token v)) ∧
    (¬ Str1 ListChar v → (∀ b ∈ v, TextChar b) → ListMailbox.tryFrom v = .ok (.string (.quoted v))) ∧
    ((∃ b ∈ v, ¬ TextChar b) → 0 ∉ v → ListMailbox.tryFrom v = .ok (.string (.literal ⟨v, .sync⟩))) ∧
    ∀ b i, FirstBad NotNul v b i → ListMailbox.tryFrom v = .err (.invalidByteAt b i) := by
  obtain ⟨h1, h2, h3⟩ := C25_istring v
  have key : ∀ b : UInt8, ListChar b → TextChar b := by
    intro b h
    rw [← listChar_iff] at h
    rw [← textChar_iff]
    revert b
    exact forall_byte (by decide)
  have herr : v ≠ [] → ¬ Str1 ListChar v → ∃ e, ListCharString.tryFrom v = .err e := by
    intro he h
    rcases all_or_firstBad ListChar v with hv | ⟨b, i, hb⟩
    · exact absurd ⟨he, hv⟩ h
    · exact ⟨_, (C25_listCharString.2 v).2 b i hb⟩
  have hne : v ≠ [] → v.isEmpty = false := by cases v <;> simp
  refine ⟨fun h => ?_, fun hn h => ?_, fun h h0 => ?_, fun b i h => ?_⟩
  · simp only [ListMailbox.tryFrom, hne h.1, (C25_listCharString.2 v).1 h]; rfl
  · by_cases he : v = []
    · subst he; rfl
    · obtain ⟨e, he'⟩ := herr he hn
      simp only [ListMailbox.tryFrom, hne he, he', h1 h]; rfl
  · have he : v ≠ [] := by rintro rfl; simp at h
    obtain ⟨e, he'⟩ := herr he fun hs => by
      obtain ⟨b, hb, hbt⟩ := h
      exact hbt (key b (hs.2 b hb))
    simp only [ListMailbox.tryFrom, hne he, he', h2 h h0]; rfl
  · have h3 := h3 b i h
    obtain ⟨pre, post, rfl, -, -, hb⟩ := h
    obtain ⟨e, he'⟩ := herr (by simp) fun hs => hb (key b (hs.2 b (by simp))).2.1
    simp only [ListMailbox.tryFrom, hne (by simp), he', h3]; rfl

theorem listMailbox_sendable {v : Bytes} (h : Sendable v) :
    ∃ s, ListMailbox.tryFrom v = .ok s ∧ s.content = v ∧ ListMailbox.Inv .rt s := by
  obtain ⟨h1, h2, h3, -⟩ := C25_listMailbox v
  by_cases ha : Str1 ListChar v
  · exact ⟨_, h1 ha, rfl, ha⟩
  · rcases all_or_firstBad TextChar v with hv | ⟨b, i, pre, post, rfl, -, -, hb⟩
    · exact ⟨_, h2 ha hv, rfl, hv⟩
    · exact ⟨_, h3 ⟨b, by simp, hb⟩ h.1, rfl, ⟨h.1, fun _ => h.2⟩⟩

/-- What the server gets when the client sends a command. -/
def Arrives (tag : Bytes) (sent got : CommandBody) : Prop :=
  ∀ rest, Codec.command.decode (dump (Codec.command.encode ⟨tag, sent⟩) ++ rest) = .ok rest ⟨tag, got⟩

theorem arrives {tag : Bytes} (ht : Str1 TagChar tag) {c : CommandBody} (h : CommandBody.Inv .rt c) : Arrives tag c c.norm :=
  fun rest => round_trip .command ⟨tag, c⟩ ⟨ht, h⟩ rest

/-- C37 for LOGIN: any two byte strings without NUL can be sent as username and password, and arrive unchanged. -/
theorem C37_login (tag u p : Bytes) (ht : Str1 TagChar tag) (hu : Sendable u) (hp : Sendable p) :
    ∃ a b, CommandBody.mkLogin (AString.tryFrom u) (AString.tryFrom p) = .ok (.login a b) ∧
      a.content = u ∧ b.content = p ∧ Arrives tag (.login a b) (.login a b) := by
  obtain ⟨a, ha, hac, hai⟩ := C25_sendable hu
  obtain ⟨b, hb, hbc, hbi⟩ := C25_sendable hp
  refine ⟨a, b, ?_, hac, hbc, arrives ht (c := .login a b) ⟨hai, hbi⟩⟩
  rw [ha, hb]
  rfl

/-- C37 for the commands with one mailbox: each name without NUL can be sent, and arrives as the mailbox that it denotes. -/
theorem C37_mailbox (tag v : Bytes) (ht : Str1 TagChar tag) (h : Sendable v) (items : List StatusDataItemName)
    (hs : All StatusDataItemName.Inv items) :
    ∃ m, Mailbox.tryFrom v = .ok m ∧ Names m v ∧
      (∃ c, CommandBody.mkSelect (Mailbox.tryFrom v) = .ok c ∧ Arrives tag c (.select m [])) ∧
      (∃ c, CommandBody.mkExamine (Mailbox.tryFrom v) = .ok c ∧ Arrives tag c (.examine m [])) ∧
      (∃ c, CommandBody.mkCreate (Mailbox.tryFrom v) = .ok c ∧ Arrives tag c (.create m)) ∧
      (∃ c, CommandBody.mkDelete (Mailbox.tryFrom v) = .ok c ∧ Arrives tag c (.delete m)) ∧
      (∃ c, CommandBody.mkSubscribe (Mailbox.tryFrom v) = .ok c ∧ Arrives tag c (.subscribe m)) ∧
      (∃ c, CommandBody.mkUnsubscribe (Mailbox.tryFrom v) = .ok c ∧ Arrives tag c (.unsubscribe m)) ∧
      (∃ c, CommandBody.mkStatus (Mailbox.tryFrom v) items = .ok c ∧ Arrives tag c (.status m items)) := by
  obtain ⟨m, hm, hn, -, hi⟩ := (C26_tryFrom v).1 h.1
  have hi := hi h.2
  rw [hm]
  exact ⟨m, rfl, hn, ⟨_, rfl, arrives ht (c := .select m []) ⟨hi, by simp [All]⟩⟩,
    ⟨_, rfl, arrives ht (c := .examine m []) ⟨hi, by simp [All]⟩⟩, ⟨_, rfl, arrives ht (c := .create m) hi⟩,
    ⟨_, rfl, arrives ht (c := .delete m) hi⟩, ⟨_, rfl, arrives ht (c := .subscribe m) hi⟩,
    ⟨_, rfl, arrives ht (c := .unsubscribe m) hi⟩, ⟨_, rfl, arrives ht (c := .status m items) ⟨hi, hs⟩⟩⟩

/-- C37 for the commands with two mailboxes. -/
theorem C37_mailboxes (tag v w : Bytes) (ht : Str1 TagChar tag) (hv : Sendable v) (hw : Sendable w) :
    ∃ m n p, Names m v ∧ Names n w ∧ ListMailbox.content p = w ∧
      (∃ c, CommandBody.mkRename (Mailbox.tryFrom v) (Mailbox.tryFrom w) = .ok c ∧ Arrives tag c (.rename m n)) ∧
      (∃ c, CommandBody.mkList (Mailbox.tryFrom v) (ListMailbox.tryFrom w) = .ok c ∧ Arrives tag c (.list m p)) ∧
      (∃ c, CommandBody.mkLsub (Mailbox.tryFrom v) (ListMailbox.tryFrom w) = .ok c ∧ Arrives tag c (.lsub m p)) := by
  obtain ⟨m, hm, hmn, -, hmi⟩ := (C26_tryFrom v).1 hv.1
  obtain ⟨n, hn, hnn, -, hni⟩ := (C26_tryFrom w).1 hw.1
  obtain ⟨p, hp, hpc, hpi⟩ := listMailbox_sendable hw
  rw [hm, hn, hp]
  exact ⟨m, n, p, hmn, hnn, hpc, ⟨_, rfl, arrives ht (c := .rename m n) ⟨hmi hv.2, hni hw.2⟩⟩,
    ⟨_, rfl, arrives ht (c := .list m p) ⟨hmi hv.2, hpi⟩⟩, ⟨_, rfl, arrives ht (c := .lsub m p) ⟨hmi hv.2, hpi⟩⟩⟩

/-- C37 for APPEND: each message without NUL can be sent, and arrives unchanged. -/
theorem C37_append (tag v msg : Bytes) (flags : List Flag) (date : Option DateTime) (ht : Str1 TagChar tag) (hv : Sendable v)
    (hmsg : Sendable msg) (hf : All Flag.Inv flags) (hd : Opt DateTime.Inv date) :
    ∃ m c, Names m v ∧ CommandBody.mkAppend (Mailbox.tryFrom v) flags date (Literal.tryFrom msg) = .ok c ∧
      Arrives tag c (.append m flags date (.literal ⟨msg, .sync⟩)) := by
  obtain ⟨m, hm, hmn, -, hmi⟩ := (C26_tryFrom v).1 hv.1
  rw [hm, (C25_literal msg).1 fun b hb e => hmsg.1 (e ▸ hb)]
  exact ⟨m, _, hmn, rfl, arrives ht (c := .append m flags date (.literal ⟨msg, .sync⟩))
    ⟨hmi hv.2, hf, hd, hmsg.1, fun _ => hmsg.2⟩⟩

/-- C37 for the commands on messages. The set arrives as `normSet` describes (C21). -/
theorem C37_messages (tag v : Bytes) (ht : Str1 TagChar tag) (hv : Sendable v) (s : SequenceSet) (hs : SequenceSet.Inv s)
    (uid : Bool) (items : MacroOrNames) (hi : MacroOrNames.Inv .rt items) (kind : StoreType) (resp : StoreResponse)
    (flags : List Flag) (hf : All Flag.Inv flags) :
    ∃ m, Names m v ∧
      (∃ c, CommandBody.mkFetch (.ok s : Made ValidationError _) items uid = .ok c ∧
        Arrives tag c (.fetch (normSet s) items uid [])) ∧
      (∃ c, CommandBody.mkStore (.ok s : Made ValidationError _) kind resp flags uid = .ok c ∧
        Arrives tag c (.store (normSet s) kind resp flags uid [])) ∧
      (∃ c, CommandBody.mkCopy (.ok s : Made ValidationError _) (Mailbox.tryFrom v) uid = .ok c ∧
        Arrives tag c (.copy (normSet s) m uid)) := by
  obtain ⟨m, hm, hmn, -, hmi⟩ := (C26_tryFrom v).1 hv.1
  rw [hm]
  exact ⟨m, hmn, ⟨_, rfl, arrives ht (c := .fetch s items uid []) ⟨hs, hi, by simp [All]⟩⟩,
    ⟨_, rfl, arrives ht (c := .store s kind resp flags uid []) ⟨hs, hf, by simp [All]⟩⟩,
    ⟨_, rfl, arrives ht (c := .copy s m uid) ⟨hs, hmi hv.2⟩⟩⟩

omit [Quirks] in
/-- C37: an invalid argument is reported as the error of this argument, and the first argument has precedence. -/
theorem C37_errors {ε δ : Type} (e : ε) (d : δ) (a : AString) (r : Made δ AString) (m : Mailbox) (q : Made δ Mailbox) :
    CommandBody.mkLogin (.err e) r = .err (.first e) ∧
    CommandBody.mkLogin (.ok a : Made ε _) (.err d) = .err (.second d) ∧
    CommandBody.mkRename (.err e) q = .err (.first e) ∧
    CommandBody.mkRename (.ok m : Made ε _) (.err d) = .err (.second d) ∧
    CommandBody.mkSelect (.err e) = .err e ∧ CommandBody.mkExamine (.err e) = .err e ∧ CommandBody.mkCreate (.err e) = .err e ∧
    CommandBody.mkDelete (.err e) = .err e ∧ CommandBody.mkSubscribe (.err e) = .err e ∧
    CommandBody.mkUnsubscribe (.err e) = .err e := ⟨rfl, rfl, rfl, rfl, rfl, rfl, rfl, rfl, rfl, rfl⟩

/-- C37 for greetings: a text without a code can be sent unless it starts with `[`. -/
theorem C37_greeting (kind : GreetingKind) (text rest : Bytes) (h : Str1 TextChar text) (hb : text.head? ≠ some 91) :
    ∃ g, Greeting.mk' kind none text = .ok g ∧
      Codec.greeting.decode (dump (Codec.greeting.encode g) ++ rest) = .ok rest ⟨kind, none, text⟩ := by
  refine ⟨⟨kind, none, text⟩, ?_, ?_⟩
  · rw [Greeting.mk', (C25_text.2 text).1 h]; rfl
  · exact round_trip .greeting ⟨kind, none, text⟩ ⟨h, by simp [Opt], fun _ _ => hb⟩ rest

/-- C37 for status responses. -/
theorem C37_status (tag : Option Bytes) (kind : StatusKind) (text rest : Bytes) (ht : Opt (Str1 TagChar) tag) (h : Str1 TextChar text)
    (hb : text.head? ≠ some 91) :
    ∃ s, Status.mk' tag kind none (Text.tryFrom text) = .ok s ∧ s.tag? = tag ∧ s.code = none ∧ s.text = text ∧
      Codec.response.decode (dump (Codec.response.encode (.status s)) ++ rest) = .ok rest (.status s) := by
  rw [(C25_text.2 text).1 h]
  have hr : RespText.Inv .rt none text := ⟨h, by simp [Opt], fun _ _ => hb⟩
  cases tag with
  | none => exact ⟨.untagged kind none text, rfl, rfl, rfl, rfl, round_trip .response (.status (.untagged kind none text)) hr rest⟩
  | some t =>
    exact ⟨.tagged t kind none text, rfl, rfl, rfl, rfl,
      round_trip .response (.status (.tagged t kind none text)) ⟨ht t rfl, hr⟩ rest⟩

/-- C37 for continuation requests: a text without a code is rejected exactly if it starts with `[` or is the base64 encoding of
something; otherwise it arrives as it is, and is never taken for data. -/
theorem C37_continue (text rest : Bytes) (h : Str1 TextChar text) :
    ((text.head? = some 91 ∨ ∃ d, text = b64Encode d) ↔ ContinueReq.mkBasic none (Text.tryFrom text) = .err .ambiguity) ∧
    (¬ (text.head? = some 91 ∨ ∃ d, text = b64Encode d) → ∃ r, ContinueReq.mkBasic none (Text.tryFrom text) = .ok r ∧
      Codec.response.decode (dump (Codec.response.encode (.continue_ r)) ++ rest) = .ok rest (.continue_ (.basic none text))) := by
  rw [(C25_text.2 text).1 h]
  have e : ContinueReq.mkBasic none (.ok text : Made ValidationError _) =
      (match ContinueReq.ofBasic none text with
        | some r => .ok r
        | none => .err .ambiguity) := rfl
  have hd : (b64Decode text).isSome = true ↔ ∃ d, text = b64Encode d := by
    rw [Option.isSome_iff_exists]
    exact exists_congr fun d => C24_base64 text d
  simp only [id]
  rw [e, ContinueReq.ofBasic]
  by_cases h1 : text.head? = some 91
  · simp [h1]
  · by_cases h2 : ∃ d, text = b64Encode d
    · simp [h1, hd.2 h2, h2]
    · have h2' : b64Decode text = none := by
        cases h3 : b64Decode text with
        | none => rfl
        | some d => exact absurd (hd.1 (by simp [h3])) h2
      simp only [h1, h2, h2', Option.isNone_none, Bool.true_and, beq_iff_eq, if_false, Option.isSome_none, Bool.false_eq_true]
      refine ⟨by simp, fun _ => ⟨.basic none text, rfl, ?_⟩⟩
      exact round_trip .response (.continue_ (.basic none text))
        ⟨⟨h, by simp [Opt], fun _ _ => h1⟩, fun _ => ⟨h1, h2'⟩⟩ rest

/-! ### C38 -/

/-- The commands that are sent with the prefix UID. -/
def CommandBody.IsUid : CommandBody → Bool
  | .expungeUid _ => true
  | .search _ _ u | .sort _ _ _ u | .thread _ _ _ u | .fetch _ _ u _ | .store _ _ _ _ u _ | .copy _ _ u | .move _ _ u => u
  | _ => false

/-- C38: the name of a command is the word after the tag, and after UID if there is one, of its encoding. -/
theorem C38_name (c : Command) : ∃ args, (args = b!"\r\n" ∨ ∃ x, args = b!" " ++ x) ∧
    dump (Codec.command.encode c) = c.tag ++ b!" " ++ (if c.body.IsUid then b!"UID " else []) ++ c.name ++ args := by
  unfold Codec.encode
  rw [dump_fragments]
  obtain ⟨tag, body⟩ := c
  suffices h : ∃ args, (args = b!"\r\n" ∨ ∃ x, args = b!" " ++ x) ∧
      bytes body.enc ++ b!"\r\n" = (if body.IsUid then b!"UID " else []) ++ body.name ++ args by
    obtain ⟨args, h1, h2⟩ := h
    refine ⟨args, h1, ?_⟩
    simp only [Codec.enc, Command.enc, Command.name, bytes_wr, bytes_append, bytes_nil, List.append_nil]
    rw [List.append_assoc, List.append_assoc, h2]
    simp only [List.append_assoc]
  cases body <;> simp only [CommandBody.enc, CommandBody.IsUid, CommandBody.name, encUid]
  case getMetadata os m es =>
    unfold encParams
    cases os
    · exact ⟨_, .inr ⟨_, rfl⟩, rfl⟩
    · exact ⟨_, .inr ⟨_, rfl⟩, rfl⟩
  case search c l u => cases u <;> cases c <;> exact ⟨_, .inr ⟨_, rfl⟩, rfl⟩
  case sort s c l u => cases u <;> exact ⟨_, .inr ⟨_, rfl⟩, rfl⟩
  case thread s c l u => cases u <;> exact ⟨_, .inr ⟨_, rfl⟩, rfl⟩
  case fetch s c u l => cases u <;> exact ⟨_, .inr ⟨_, rfl⟩, rfl⟩
  case store s c l fs u ms => cases u <;> exact ⟨_, .inr ⟨_, rfl⟩, rfl⟩
  case copy s m u => cases u <;> exact ⟨_, .inr ⟨_, rfl⟩, rfl⟩
  case move s m u => cases u <;> exact ⟨_, .inr ⟨_, rfl⟩, rfl⟩
  all_goals first | exact ⟨_, .inl rfl, rfl⟩ | exact ⟨_, .inr ⟨_, rfl⟩, rfl⟩

end Decoder

end Imap

/-! ### Concrete cases -/

namespace Imap.ConstructorsExamples

open Imap Imap.Spec

local instance : Quirks := Quirks.default

/-- C25: the hypotheses are met by an atom, a quoted string, a literal, and a string with NUL. -/
example : Str1 AStringChar b!"a]b" ∧ AString.tryFrom b!"a]b" = .ok (.atom b!"a]b") := ⟨by decide, (C25_astring _).1 (by decide)⟩
example : AString.tryFrom b!"a b" = .ok (.string (.quoted b!"a b")) := (C25_astring _).2.1 (by decide) (by decide)
example : AString.tryFrom [] = .ok (.string (.quoted [])) := (C25_astring _).2.1 (by decide) (by decide)
example : AString.tryFrom b!"a\r\nb" = .ok (.string (.literal ⟨b!"a\r\nb", .sync⟩)) := (C25_astring _).2.2.1 (by decide) (by decide)
example : AString.tryFrom [97, 0, 98] = .err (.invalidByteAt 0 1) :=
  (C25_astring _).2.2.2 0 1 ⟨[97], [98], rfl, rfl, by simp [NotNul], by simp [NotNul]⟩
example : Atom.tryFrom b!"a(b" = .err (.invalidByteAt 40 1) :=
  (C25_atom.2 _).2 40 1 ⟨b!"a", b!"b", rfl, rfl, by decide, by decide⟩
example : Tag.tryFrom b!"a+b" = .err (.invalidByteAt 43 1) :=
  (C25_tag.2 _).2 43 1 ⟨b!"a", b!"b", rfl, rfl, by decide, by decide⟩
example : QuotedChar.tryFrom '"' = .ok 34 := (C25_quotedChar _ _).2 ⟨by decide, by decide, by decide⟩

/-- C26: a variant of INBOX as a quoted string, and a name that is not INBOX. -/
example : mailbox b!"\"InBoX\" " = .ok b!" " .inbox :=
  (C26_decode _ _ _).2 ⟨.string (.quoted b!"InBoX"), by with_unfolding_all rfl, .inl ⟨rfl, rfl⟩, .inl rfl⟩
example : Names (.other (.atom b!"INBOX1")) b!"INBOX1" := .inr ⟨by unfold IsInbox; decide, _, rfl, rfl⟩

/-- C37: a password that looks like a second command arrives as a password. -/
example : ∃ a b, CommandBody.mkLogin (AString.tryFrom b!"alice") (AString.tryFrom b!"x\r\nA2 DELETE inbox\r\n") = .ok (.login a b) ∧
    a.content = b!"alice" ∧ b.content = b!"x\r\nA2 DELETE inbox\r\n" ∧ Arrives b!"A1" (.login a b) (.login a b) :=
  C37_login _ _ _ (by decide) ⟨by decide, by decide⟩ ⟨by decide, by decide⟩

/-- C37: `Zm9v` is base64, `Ready.` is not. -/
example : ContinueReq.mkBasic none (Text.tryFrom b!"Zm9v") = .err .ambiguity :=
  (C37_continue b!"Zm9v" [] (by decide)).1.1 (.inr ⟨b!"foo", by decide⟩)
example : ContinueReq.mkBasic none (Text.tryFrom b!"Ready.") = .ok (.basic none b!"Ready.") := by with_unfolding_all rfl

/-- C38: the word after UID. -/
example : (CommandBody.fetch [.single .asterisk] (.macro_ .all) true []).name = b!"FETCH" := rfl

end Imap.ConstructorsExamples
