import Verif.Base64Spec
import Verif.Props.Strings
/-
Property C24, continued: the encoding that C24 is about is base64 according to RFC 4648.
-/
set_option maxRecDepth 10000

namespace Imap

theorem alphabet_getD : ∀ n, n < 64 → Spec.base64Alphabet.getD n 0 = b64Char n := by decide

theorem ofBits_six (a b c d e f : Bool) :
    Spec.ofBits [a, b, c, d, e, f] = 32 * a.toNat + 16 * b.toNat + 8 * c.toNat + 4 * d.toNat + 2 * e.toNat + f.toNat := by
  cases a <;> cases b <;> cases c <;> cases d <;> cases e <;> cases f <;> rfl

/-- The bits of a byte. -/
abbrev tb (b : UInt8) (i : Nat) : Nat := (b.toNat.testBit i).toNat

theorem tb_parts : ∀ b : UInt8,
    (32 * tb b 7 + 16 * tb b 6 + 8 * tb b 5 + 4 * tb b 4 + 2 * tb b 3 + tb b 2 = b.toNat / 4 ∧
    2 * tb b 1 + tb b 0 = b.toNat % 4 ∧ 8 * tb b 7 + 4 * tb b 6 + 2 * tb b 5 + tb b 4 = b.toNat / 16 ∧
    8 * tb b 3 + 4 * tb b 2 + 2 * tb b 1 + tb b 0 = b.toNat % 16 ∧ 2 * tb b 7 + tb b 6 = b.toNat / 64 ∧
    32 * tb b 5 + 16 * tb b 4 + 8 * tb b 3 + 4 * tb b 2 + 2 * tb b 1 + tb b 0 = b.toNat % 64) := forall_byte (by decide)

theorem lookup_six {a b c d e f : Bool} {n : Nat}
    (h : 32 * a.toNat + 16 * b.toNat + 8 * c.toNat + 4 * d.toNat + 2 * e.toNat + f.toNat = n) :
    Spec.base64Alphabet.getD (Spec.ofBits [a, b, c, d, e, f]) 0 = b64Char n := by
  have hb : ∀ x : Bool, x.toNat ≤ 1 := by decide
  have := hb a; have := hb b; have := hb c; have := hb d; have := hb e; have := hb f
  rw [ofBits_six, h]
  exact alphabet_getD n (by omega)

/-- C24: the encoding is base64 according to RFC 4648. -/
theorem C24_rfc4648 (data : Bytes) : b64Encode data = Spec.base64 data := by
  fun_induction b64Encode data with
  | case1 => rfl
  | case2 a =>
    have ha := tb_parts a
    simp only [Spec.base64, Spec.base64Chars, Spec.bitsOf, List.flatMap_cons, List.flatMap_nil, List.map_cons, List.map_nil, List.append_nil,
      Spec.sextets, List.cons_append, List.nil_append, List.replicate, List.take]
    rw [lookup_six ha.1, lookup_six (n := a.toNat % 4 * 16) (by simp [tb] at ha ⊢; omega)]
    rfl
  | case3 a b =>
    have ha := tb_parts a
    have hb := tb_parts b
    simp only [Spec.base64, Spec.base64Chars, Spec.bitsOf, List.flatMap_cons, List.flatMap_nil, List.map_cons, List.map_nil, List.append_nil,
      Spec.sextets, List.cons_append, List.nil_append, List.replicate, List.take]
    rw [lookup_six ha.1, lookup_six (n := a.toNat % 4 * 16 + b.toNat / 16) (by simp [tb] at ha hb ⊢; omega),
      lookup_six (n := b.toNat % 16 * 4) (by simp [tb] at ha hb ⊢; omega)]
    rfl
  | case4 a b c r ih =>
    have ha := tb_parts a
    have hb := tb_parts b
    have hc := tb_parts c
    have h : Spec.base64Chars (a :: b :: c :: r) = b64Char (a.toNat / 4) :: b64Char (a.toNat % 4 * 16 + b.toNat / 16) ::
        b64Char (b.toNat % 16 * 4 + c.toNat / 64) :: b64Char (c.toNat % 64) :: Spec.base64Chars r := by
      simp only [Spec.base64Chars, Spec.bitsOf, List.flatMap_cons, List.map_cons, List.map_nil, List.append_nil,
        Spec.sextets, List.cons_append, List.nil_append]
      rw [lookup_six ha.1, lookup_six (n := a.toNat % 4 * 16 + b.toNat / 16) (by simp [tb] at ha hb ⊢; omega),
        lookup_six (n := b.toNat % 16 * 4 + c.toNat / 64) (by simp [tb] at ha hb hc ⊢; omega), lookup_six hc.2.2.2.2.2]
    rw [ih]
    have hm : ∀ n, (n + 1 + 1 + 1 + 1) % 4 = n % 4 := by omega
    simp only [Spec.base64, h, List.length_cons, hm, List.cons_append]

/-- The examples of RFC 4648, section 10. -/
example : Spec.base64 b!"foobar" = b!"Zm9vYmFy" ∧ Spec.base64 b!"fooba" = b!"Zm9vYmE=" ∧ Spec.base64 b!"foob" = b!"Zm9vYg==" := by decide

example : b64Encode [0xfb, 0xef, 0xff] = b!"++//" := by decide

end Imap
