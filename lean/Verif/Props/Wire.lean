import Verif.Wire
import Verif.Utf8
/-
Property C68: what is sent outside of literals is text. Every line is valid UTF-8, and 7-bit text without NUL where `QuotedUtf8` is not
used. Response codes that are not known to imap-codec are sent as they are.
-/
set_option maxRecDepth 10000

namespace Imap

open Imap.Spec

/-! ### UTF-8 is closed under concatenation -/

theorem Utf8.run_append {s : Utf8} {xs ys : Bytes} (hx : s.run xs = true) (hy : isUtf8 ys = true) : s.run (xs ++ ys) = true := by
  induction xs generalizing s with
  | nil =>
    simp only [Utf8.run, beq_iff_eq] at hx
    subst hx
    exact hy
  | cons b xs ih =>
    simp only [List.cons_append, Utf8.run] at hx ⊢
    split at hx
    · exact ih hx
    · cases hx

theorem isPlain_iff {bs : Bytes} : Wire.isPlain bs = true ↔ ∀ b ∈ bs, 0 < b.toNat ∧ b.toNat < 128 := by
  simp [Wire.isPlain]

theorem isPlain_utf8 {bs : Bytes} (h : Wire.isPlain bs = true) : isUtf8 bs = true :=
  isUtf8_of_ascii fun b hb => UInt8.lt_iff_toNat_lt.2 (isPlain_iff.1 h b hb).2

@[reducible] def Wire.closedUtf8 [Quirks] : Wire.Closed where
  P bs := isUtf8 bs = true
  plain := isPlain_utf8
  append := Utf8.run_append
  utf8 := fun {s} _ h => Utf8.run_append (Utf8.run_append (xs := b!"\"") rfl (by rw [isUtf8_escape]; exact h)) rfl

@[reducible] def Wire.closedAscii [q : Quirks] (h : q.extUtf8 = false) : Wire.Closed where
  P bs := Wire.isPlain bs = true
  plain := id
  append := fun hx hy => isPlain_iff.2 fun b hb => (List.mem_append.1 hb).elim (isPlain_iff.1 hx b) (isPlain_iff.1 hy b)
  utf8 := fun e => by simp [h] at e

/-- The URL of a referral is a Rust string. -/
theorem referral_utf8 [Quirks] {k : Codec} {m : k.Message} (h : WellFormed k m) {url : Bytes} (hu : k.code m = some (.referral url)) :
    isUtf8 url = true := by
  cases k with
  | greeting => exact (h.2.1 _ hu).2.2.1
  | response =>
    match m, h, hu with
    | .status (.untagged _ _ _), h, rfl => exact (h.2.1 _ rfl).2.2.1
    | .status (.tagged _ _ _ _), h, rfl => exact (h.2.2.1 _ rfl).2.2.1
    | .status (.bye _ _), h, rfl => exact (h.2.1 _ rfl).2.2.1
    | .continue_ (.basic _ _), h, rfl => exact (h.1.2.1 _ rfl).2.2.1
  | _ => cases hu

/-- The bytes are the UTF-8 encoding of characters. -/
def Spec.Utf8Text (bs : Bytes) : Prop := ∃ cs : List Char, bs = cs.flatMap String.utf8EncodeChar

/-- C68: every line that is sent is valid UTF-8, unless a response code that imap-codec does not know is not. -/
theorem C68_utf8 [Quirks] (k : Codec) (m : k.Message) (h : WellFormed k m) (hc : ∀ bs, k.code m = some (.other bs) → Utf8Text bs)
    (l : Bytes) (hl : .line l ∈ k.encode m) : Utf8Text l := by
  let := Wire.closedUtf8
  refine (isUtf8_iff l).1 (Wire.message_lines k m h (fun c hm => ?_) l hl)
  cases c with
  | referral url => exact referral_utf8 h hm
  | other bs => exact (isUtf8_iff bs).2 (hc bs hm)
  | _ => trivial

/-- C68: without the feature for UTF-8, every line that is sent consists of bytes from 1 to 127, unless a response code that imap-codec
does not know, or the URL of a referral, does not. -/
theorem C68_ascii [q : Quirks] (hq : q.extUtf8 = false) (k : Codec) (m : k.Message) (h : WellFormed k m)
    (hc : ∀ bs, k.code m = some (.other bs) ∨ k.code m = some (.referral bs) → ∀ b ∈ bs, 0 < b.toNat ∧ b.toNat < 128)
    (l : Bytes) (hl : .line l ∈ k.encode m) : ∀ b ∈ l, 0 < b.toNat ∧ b.toNat < 128 := by
  let := Wire.closedAscii hq
  refine isPlain_iff.1 (Wire.message_lines k m h (fun c hm => ?_) l hl)
  cases c with
  | referral url => exact isPlain_iff.2 (hc url (.inr hm))
  | other bs => exact isPlain_iff.2 (hc bs (.inl hm))
  | _ => trivial

/-- A login with the user name `ü"`: the line is valid UTF-8, but not 7-bit text. -/
example : let c : Command := ⟨b!"A1", .login (.string (.quotedUtf8 [0xc3, 0xbc, 0x22])) (.string (.literal ⟨[0xff, 0x0a], .sync⟩))⟩
    @WellFormed Quirks.default .command c ∧
    @Codec.encode Quirks.default .command c = [.line (b!"A1 LOGIN \"" ++ [0xc3, 0xbc] ++ b!"\\\"\" {2}\r\n"), .literal [0xff, 0x0a] .sync, .line b!"\r\n"] :=
  ⟨⟨by decide, ⟨rfl, rfl, nofun, nofun⟩, by decide, nofun⟩, by with_unfolding_all rfl⟩

example := @C68_utf8 Quirks.default .command ⟨b!"A1", .login (.string (.quotedUtf8 [0xc3, 0xbc, 0x22])) (.string (.literal ⟨[0xff, 0x0a], .sync⟩))⟩
  ⟨by decide, ⟨rfl, rfl, nofun, nofun⟩, by decide, nofun⟩ nofun

/-- Without the feature, the same user name cannot be quoted, and is sent as a literal. -/
example := @C68_ascii Quirks.bare rfl .command ⟨b!"A1", .login (.string (.literal ⟨[0xc3, 0xbc, 0x22], .sync⟩)) (.atom b!"x")⟩
  ⟨by decide, ⟨by decide, nofun⟩, (by decide : Spec.Str1 Spec.AStringChar b!"x")⟩ (fun _ h => h.elim nofun nofun)

/-- A greeting with a code that imap-codec does not know. -/
example := @C68_ascii Quirks.bare rfl .greeting ⟨.ok, some (.other b!"X-A 1"), b!"hi"⟩
  ⟨by decide, by simp [Spec.Opt, Spec.Code.Inv], nofun⟩ (by
    rintro bs (h | h) <;> cases h
    decide)

/-- The hypothesis on unknown codes is needed: their bytes are sent as they are. -/
theorem C68_fails_other [Quirks] : ∃ (m : Greeting) (l : Bytes), WellFormed .greeting m ∧ Codec.greeting.encode m = [.line l] ∧ ¬ Utf8Text l :=
  ⟨⟨.ok, some (.other [0xff]), b!"hi"⟩, b!"* OK [" ++ 0xff :: b!"] hi\r\n", ⟨by decide, by simp [Spec.Opt, Spec.Code.Inv], nofun⟩,
    by with_unfolding_all rfl, fun h => absurd ((isUtf8_iff _).2 h) (by decide)⟩

end Imap
