import Verif.RustBytesSpec
import Verif.Props.Strings
set_option maxRecDepth 10000
/-
Property C34, continued: what `escape_byte_string` returns is the content of a byte string literal of Rust.
-/
namespace Imap
open Spec

theorem byteString_escapeByte (b : UInt8) (x : Bytes) : byteString (escapeByte b ++ x) = (byteString x).map fun y => (b :: y.1, y.2) := by
  have key : ∀ b, escapeByte b = [b] ∧ (b ≠ 34 ∧ b ≠ 92 ∧ b ≠ 13 ∧ b < 128) ∨ escapeByte b = hexEscape b ∨
    (b, escapeByte b) ∈ [((9 : UInt8), b!"\\t"), (10, b!"\\n"), (13, b!"\\r"), (34, b!"\\\""), (92, b!"\\\\")] := forall_byte (by decide)
  rcases key b with ⟨h, h1, h2, h3⟩ | h | h
  · rw [h]
    simp only [List.singleton_append]
    rw [byteString.eq_def]
    split <;> simp_all
  · have : ∀ b : UInt8, hexValue (hexDigit (b.toNat / 16)) = some (b.toNat / 16) ∧ hexValue (hexDigit (b.toNat % 16)) = some (b.toNat % 16) :=
      forall_byte (by decide)
    have hb : UInt8.ofNat (16 * (b.toNat / 16) + b.toNat % 16) = b := by
      rw [Nat.div_add_mod]
      simp
    rw [h]
    simp only [hexEscape, List.cons_append, List.nil_append, byteString, (this b).1, (this b).2, hb]
  · simp only [List.mem_cons, List.not_mem_nil, or_false, Prod.mk.injEq] at h
    rcases h with ⟨rfl, h⟩ | ⟨rfl, h⟩ | ⟨rfl, h⟩ | ⟨rfl, h⟩ | ⟨rfl, h⟩ <;> rw [h] <;> simp [byteString]

/-- C34: between quotes, the output is a byte string literal of Rust that denotes the input, and nothing after it is taken for a part of
it. -/
theorem C34_rust_literal (bs rest : Bytes) : byteString (escapeByteString bs ++ 34 :: rest) = some (bs, rest) := by
  induction bs with
  | nil => simp [escapeByteString, byteString]
  | cons b bs ih =>
    have : escapeByteString (b :: bs) ++ 34 :: rest = escapeByte b ++ (escapeByteString bs ++ 34 :: rest) := by simp [escapeByteString]
    rw [this, byteString_escapeByte, ih]
    rfl

/-- C34: printable characters except the quote and the backslash stand for themselves, so they are found by a search in the output. -/
theorem C34_plain (bs : Bytes) (h : ∀ b ∈ bs, 0x20 ≤ b ∧ b ≤ 0x7e ∧ b ≠ 34 ∧ b ≠ 92) : escapeByteString bs = bs := by
  have key : ∀ b, 0x20 ≤ b ∧ b ≤ 0x7e ∧ b ≠ 34 ∧ b ≠ 92 → escapeByte b = [b] := forall_byte (by decide)
  induction bs with
  | nil => rfl
  | cons b bs ih =>
    have := ih fun c hc => h c (.tail _ hc)
    simp only [escapeByteString] at this
    simp [escapeByteString, key b (h b (.head _)), this]

/-- The literal `b"a\"\\\x00\xff"` denotes these bytes. -/
example : byteString b!"a\\\"\\\\\\x00\\xff\", mode: Sync" = some ([97, 34, 92, 0, 255], b!", mode: Sync") := by decide

/-- A text that meets the hypothesis of `C34_plain`. -/
example : escapeByteString b!"A1 LOGIN alice {3}" = b!"A1 LOGIN alice {3}" := C34_plain _ (by decide)

end Imap
