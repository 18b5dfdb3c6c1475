import Verif.TimedEraseResponse
import Verif.TimedBoundResponse
/-
Property C65: decoding takes polynomial time, whatever the bytes are. What is counted is specified in Verif/TimedNom.lean; the parsers with
a counter are in Verif/TimedCommand.lean and Verif/TimedResponse.lean.
-/
namespace Imap.Timed

/-- Counting does not change what is decoded: the counted parsers are those of the model. -/
theorem C65_same [Quirks] (k : Codec) (x : Bytes) : (decodeCounted k x).1 = k.decode x := by
  cases k
  · exact congrArg outcomePlain ((inferInstance : Erases greeting Imap.greeting).res x)
  · exact congrArg outcomeCommand ((inferInstance : Erases command Imap.command).res x)
  · exact congrArg outcomePlain ((inferInstance : Erases authenticateData Imap.authenticateData).res x)
  · exact congrArg outcomeResponse ((inferInstance : Erases response Imap.response).res x)
  · exact congrArg outcomePlain ((inferInstance : Erases idleDone Imap.idleDone).res x)

/-- Greetings: quadratic. -/
theorem C65_greeting [Quirks] (x : Bytes) : (decodeCounted .greeting x).2 ≤ 1063 * (x.length + 1) ^ 2 :=
  (inferInstance : Bnd greeting 5 1063).bound.cost x

/-- Commands: cubic, however deep search keys are nested. -/
theorem C65_command [Quirks] (x : Bytes) : (decodeCounted .command x).2 ≤ 26692 * (x.length + 1) ^ 3 :=
  (inferInstance : Bnd command 6 26692).bound.cost x

/-- What is sent during authentication: linear. -/
theorem C65_authenticateData [Quirks] (x : Bytes) : (decodeCounted .authenticateData x).2 ≤ 17 * (x.length + 1) := by
  have h := (inferInstance : Bnd authenticateData 4 17).bound.cost x
  simp only [budget, Nat.zero_add, pow_one] at h
  exact h

/-- DONE: constant. -/
theorem C65_idleDone [Quirks] (x : Bytes) : (decodeCounted .idleDone x).2 ≤ 9 :=
  (inferInstance : Bnd idleDone 1 9).bound.cost x

/-- Responses: of degree four, however deep body structures, their extensions and threads are nested. -/
theorem C65_response [Quirks] (x : Bytes) : (decodeCounted .response x).2 ≤ 400000 * (x.length + 1) ^ 4 :=
  (inferInstance : Bnd response 7 400000).bound.cost x

/-- All codecs, all inputs, all quirks and features. -/
theorem C65_polynomial [Quirks] (k : Codec) (x : Bytes) : (decodeCounted k x).2 ≤ 400000 * (x.length + 1) ^ 4 := by
  have hp : ∀ {K d c : Nat}, K ≤ 400000 → d ≤ 4 → c ≤ K * (x.length + 1) ^ d → c ≤ 400000 * (x.length + 1) ^ 4 := fun hK hd h =>
    le_trans h (Nat.mul_le_mul hK (Nat.pow_le_pow_right (by omega) hd))
  cases k
  · exact hp (by omega) (by omega) (C65_greeting x)
  · exact hp (by omega) (by omega) (C65_command x)
  · exact hp (K := 17) (d := 1) (by omega) (by omega) (by rw [pow_one]; exact C65_authenticateData x)
  · exact C65_response x
  · exact hp (K := 9) (d := 0) (by omega) (by omega) (C65_idleDone x)

section examples

attribute [local instance] Quirks.default

set_option maxRecDepth 10000

-- the counter counts: the tag (2 + 1), a space (1 + 1), CAPABILITY and LOGOUT, which fail at their first byte (1 + 1 each), NOOP (4 + 1),
-- and the end of the line (2 + 1)
example : (decodeCounted .command b!"A NOOP\r\n").2 = 17 := by with_unfolding_all rfl

-- nested search keys: each further NOT costs the same 61
example : (decodeCounted .command b!"A SEARCH ALL\r\n").2 = 108 := by with_unfolding_all rfl

example : (decodeCounted .command b!"A SEARCH NOT ALL\r\n").2 = 169 := by with_unfolding_all rfl

example : (decodeCounted .command b!"A SEARCH NOT NOT ALL\r\n").2 = 230 := by with_unfolding_all rfl

example : (decodeCounted .command b!"A SEARCH NOT NOT NOT ALL\r\n").2 = 291 := by with_unfolding_all rfl

-- and each further pair of parentheses the same 87
example : (decodeCounted .command b!"A SEARCH (ALL)\r\n").2 = 195 := by with_unfolding_all rfl

example : (decodeCounted .command b!"A SEARCH ((ALL))\r\n").2 = 282 := by with_unfolding_all rfl

example : (decodeCounted .command b!"A SEARCH (((ALL)))\r\n").2 = 369 := by with_unfolding_all rfl

-- a message that is cut short: the other alternatives are tried, and counted
example : (decodeCounted .response
    b!"* 1 FETCH (BODY (\"message\" \"rfc822\" NIL NIL NIL \"7bit\" 1 (NIL NIL NIL NIL NIL NIL NIL NIL NIL NIL) x))\r\n").2 = 388 := by
  with_unfolding_all rfl

-- a thread
example : (decodeCounted .response b!"* THREAD (1 (2)(3 (4)(5)))\r\n").2 = 114 := by with_unfolding_all rfl

end examples

end Imap.Timed
