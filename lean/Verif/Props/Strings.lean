import Verif.Utils
import Verif.FragSpec
import Verif.Props.Fragments
/-
Properties C18 (tags), C23 (quoted strings), C24 (base64) and C34 (`escape_byte_string`).
-/
set_option maxRecDepth 10000

namespace Imap

open Frag

variable [Quirks]

/-! ### C18 -/

omit [Quirks] in
theorem beforeSpace_iff (bs t : Bytes) :
    beforeSpace bs = some t ↔ ∃ rest, bs = t ++ 32 :: rest ∧ (32 : UInt8) ∉ t ∧ (10 : UInt8) ∉ t := by
  induction bs generalizing t with
  | nil => simp [beforeSpace]
  | cons b bs ih =>
    simp only [beforeSpace]
    split
    · next h =>
      subst h
      constructor
      · intro h
        simp at h
        subst h
        exact ⟨bs, by simp⟩
      · rintro ⟨rest, h, h1, -⟩
        cases t with
        | nil => rfl
        | cons c t => simp at h; simp [h.1] at h1
    · next hb =>
      split
      · next h =>
        subst h
        constructor
        · simp
        · rintro ⟨rest, h, -, h2⟩
          cases t with
          | nil => simp at h
          | cons c t => simp at h; simp [h.1] at h2
      · next hb' =>
        constructor
        · intro h
          obtain ⟨u, hu, rfl⟩ := Option.map_eq_some_iff.1 h
          obtain ⟨rest, rfl, h1, h2⟩ := (ih u).1 hu
          exact ⟨rest, by simp, by simp [h1, Ne.symm hb], by simp [h2, Ne.symm hb']⟩
        · rintro ⟨rest, h, h1, h2⟩
          cases t with
          | nil => simp at h; exact absurd h.1 hb
          | cons c t =>
            simp at h h1 h2
            rw [(ih t).2 ⟨rest, h.2, h1.2, h2.2⟩, h.1]
            rfl

omit [Quirks] in
theorem tag_plain {t : Bytes} (h : isTagStr t = true) : (32 : UInt8) ∉ t ∧ (10 : UInt8) ∉ t := by
  simp only [isTagStr, Bool.and_eq_true] at h
  have := List.all_eq_true.1 h.2
  constructor
  · intro hm
    exact absurd (this _ hm) (by decide)
  · intro hm
    exact absurd (this _ hm) (by decide)

omit [Quirks] in
/-- C18: a tag is found exactly if the bytes before the first space are a valid tag, and then it is these bytes. -/
theorem C18_decodeTag_iff (s : State) (t : Bytes) :
    s.decodeTag = some t ↔ Spec.Tag.Inv t ∧ ∃ rest, s.buffer = t ++ b!" " ++ rest := by
  have hi : isTag t = true ↔ Spec.Tag.Inv t := Spec.isTagStr_iff t
  simp only [State.decodeTag, parseTag]
  constructor
  · intro h
    cases e : beforeSpace s.buffer with
    | none => rw [e] at h; simp at h
    | some u =>
      rw [e] at h
      simp only [Option.ite_none_right_eq_some, Option.some.injEq] at h
      obtain ⟨hu, rfl⟩ := h
      obtain ⟨rest, hr, -⟩ := (beforeSpace_iff _ _).1 e
      exact ⟨hi.1 hu, rest, by simp [hr]⟩
  · rintro ⟨ht, rest, hr⟩
    have ht := hi.2 ht
    rw [(beforeSpace_iff s.buffer t).2 ⟨rest, by simp [hr], tag_plain ht⟩]
    simp [ht]

/-- C18: when the message decodes as a command, the tag that is found is the tag of the command. -/
theorem C18_command (s : State) (rem : Bytes) (c : Command) (h : Codec.command.decode s.buffer = .ok rem c) :
    s.decodeTag = some c.tag := by
  have ht : Spec.Tag.Inv c.tag := (decoded_valid .command _ _ c h).1.1
  refine (C18_decodeTag_iff s _).2 ⟨ht, ?_⟩
  have h := ok_of_outcomeCommand h
  rcases command_cases s.buffer with ⟨t, i, e, -, hc⟩ | hc | hc
  · have h0 := hc []
    rw [List.append_nil, h] at h0
    have h1 := fillTag_ok.1 h0.symm
    simp only [taggedBody, P.bind_apply, Res.andThen_eq_ok] at h1
    obtain ⟨i1, b, -, h1⟩ := h1
    simp at h1
    obtain ⟨-, rfl⟩ := h1
    exact ⟨i, by simp [e]⟩
  · rw [h] at hc; simp at hc
  · have := hc []
    simp [h] at this

/-- The hypothesis is met by a state after a command. -/
example := @C18_command Quirks.default { Frag.State.init none with buffer := b!"A NOOP\r\n" } [] ⟨b!"A", .noop⟩ (by with_unfolding_all rfl)

/-- C18: when decoding stops at a literal, the tag that is reported for the continuation request or the rejection is the tag that
`decode_tag` finds. -/
theorem C18_literal (s : State) (t : Bytes) (n : Nat) (mode : Option Mode)
    (h : Codec.command.decode s.buffer = .literalFound (some t) n mode) : s.decodeTag = some t := by
  obtain ⟨-, t', rest, ht, hx, hv⟩ := C08_command_literal_honest _ _ _ _ h
  simp only [Option.some.injEq] at ht
  subst ht
  exact (C18_decodeTag_iff s t).2 ⟨(Spec.isTagStr_iff t).1 hv, rest, hx⟩

/-- The hypothesis is met by a state after the announcement of a literal. -/
example := @C18_literal Quirks.default { Frag.State.init none with buffer := b!"A LOGIN {3}\r\n" } b!"A" 3 (some .sync) (by with_unfolding_all rfl)

/-! ### C23 -/

omit [Quirks] in
/-- C23: unescaping undoes escaping. -/
theorem C23_unescape_escape (s : Bytes) : unescapeQuoted (escapeQuoted s) = s := unescape_escape s

omit [Quirks] in
/-- C23: escaping puts a backslash before each backslash and each double quote and changes nothing else. -/
theorem C23_escape (s : Bytes) :
    escapeQuoted s = s.flatMap fun b => if b ∈ b!"\\\"" then b!"\\" ++ [b] else [b] := by
  rw [escapeQuoted_eq]
  congr 1
  funext b
  unfold esc1
  by_cases h : b = 92
  · subst h; rfl
  · by_cases h' : b = 34
    · subst h'; rfl
    · simp [h, h']

omit [Quirks] in
/-- C23: what is accepted as a quoted string is the escape of the decoded value between double quotes. -/
theorem C23_quoted (x r s : Bytes) :
    quoted x = .ok r s ↔ x = b!"\"" ++ escapeQuoted s ++ b!"\"" ++ r ∧ ∀ b ∈ s, Spec.TextChar b := by
  constructor
  · intro h
    have hs := (Canon.post (p := quoted)) _ _ _ h
    refine ⟨?_, (Spec.isQuoted_iff s).1 hs⟩
    unfold quoted at h
    simp only [P.bind_apply] at h
    obtain ⟨i1, v1, e1, h⟩ := Res.andThen_eq_ok.1 h
    obtain ⟨i2, v2, e2, h⟩ := Res.andThen_eq_ok.1 h
    obtain ⟨i3, v3, e3, h⟩ := Res.andThen_eq_ok.1 h
    simp at h
    obtain ⟨rfl, rfl⟩ := h
    obtain ⟨u, rfl, hu⟩ := escaped_post _ rfl rfl _ _ _ e2
    rw [unescape_escape, exists_of_char e1, exists_of_escaped e2, exists_of_char e3]
    simp
  · rintro ⟨rfl, hs⟩
    have := rt_quoted (r := r) ((Spec.isQuoted_iff s).2 hs)
    simpa [encQuoted] using this

omit [Quirks] in
/-- C23: the same for quoted strings of UTF-8 characters. -/
theorem C23_quotedUtf8 (x r s : Bytes) :
    quotedUtf8 x = .ok r s ↔ x = b!"\"" ++ escapeQuoted s ++ b!"\"" ++ r ∧ isUtf8 s = true := by
  constructor
  · intro h
    exact ⟨by simpa [encQuoted] using exists_of_quotedUtf8 h, (Canon.post (p := quotedUtf8)) _ _ _ h⟩
  · rintro ⟨rfl, hs⟩
    simpa [encQuoted] using rt_quotedUtf8 (r := r) hs

omit [Quirks] in
/-- C23: what follows the opening double quote, up to the closing one: no two different strings are written in the same way, and none
of them ends another one. -/
theorem C23_unambiguous (s s' r r' : Bytes)
    (h : escapeQuoted s ++ b!"\"" ++ r = escapeQuoted s' ++ b!"\"" ++ r') : s = s' ∧ r = r' := by
  have key : ∀ s r : Bytes, escaped (fun b => !isQuotedSpecials b) (escapeQuoted s ++ b!"\"" ++ r) = .ok (34 :: r) (escapeQuoted s) := by
    intro s r
    have := escaped_escape (f := fun b => !isQuotedSpecials b) rfl rfl (s := s) (t := 34 :: r)
      (by intro b _; cases isQuotedSpecials b <;> simp) rfl
    simpa using this
  have h1 := key s r
  rw [h, key s' r'] at h1
  simp only [Res.ok.injEq, List.cons.injEq, true_and] at h1
  refine ⟨?_, h1.1.symm⟩
  rw [← unescape_escape s, ← h1.2, unescape_escape]

/-! ### C24 -/

omit [Quirks] in
theorem exists_of_alt2 {α : Type} {p q : P α} {x r : Bytes} {v : α} (h : alt [p, q] x = .ok r v) :
    p x = .ok r v ∨ q x = .ok r v := by
  simp only [alt_cons, orElse] at h
  cases e : p x with
  | error =>
    rw [e] at h
    cases e' : q x with
    | error => simp [e'] at h
    | _ => simp_all
  | _ => simp_all

omit [Quirks] in
/-- C24: decoding accepts exactly the encodings. -/
theorem C24_base64 (e d : Bytes) : b64Decode e = some d ↔ e = b64Encode d :=
  ⟨fun h => (b64_encode_decode e d h).symm, fun h => by rw [h, b64_decode_encode]⟩

omit [Quirks] in
theorem exists_of_base64 {x r d : Bytes} (h : base64 x = .ok r d) : x = b64Encode d ++ r := by
  obtain ⟨e, e1, e2⟩ := exists_of_mapRes h
  rw [(C24_base64 e d).1 e2] at e1
  unfold recognize at e1
  obtain ⟨i1, v1, h1, h2⟩ := Res.andThen_eq_ok.1 e1
  simp only [P.bind_apply] at h1
  obtain ⟨i2, v2, h3, h4⟩ := Res.andThen_eq_ok.1 h1
  obtain ⟨rfl, -⟩ := exists_of_takeWhile h3
  have : ∃ c, i2 = c ++ i1 := by
    rcases exists_of_opt h4 with ⟨v, -, h5⟩ | ⟨-, rfl, -⟩
    · rcases exists_of_alt2 h5 with h5 | h5 <;> exact ⟨_, exists_of_tag h5⟩
    · exact ⟨[], rfl⟩
  obtain ⟨c, rfl⟩ := this
  simp only [Res.ok.injEq] at h2
  obtain ⟨rfl, h2⟩ := h2
  rw [← List.append_assoc, List.length_append, Nat.add_sub_cancel, List.take_left'] at h2
  · rw [← h2, List.append_assoc]
  · rfl

/-- The ends of a line: CRLF; with quirk_crlf_relaxed also LF. -/
def Spec.Eol (e : Bytes) : Prop := e = b!"\r\n" ∨ Quirks.crlfRelaxed = true ∧ e = b!"\n"

/-- C24: the client's data during authentication is accepted exactly in its canonical encoding. -/
theorem C24_authenticateData (x rem d : Bytes) :
    Codec.authenticateData.decode x = .ok rem (.continue_ d) ↔ ∃ e, Spec.Eol e ∧ x = b64Encode d ++ e ++ rem := by
  constructor
  · intro h
    have h := ok_of_outcomePlain (r := authenticateData x) h
    rcases exists_of_alt2 h with h | h
    · simp only [P.map_apply, P.bind_apply, Res.andThen_eq_ok] at h
      obtain ⟨i1, v1, ⟨i2, v2, e1, i3, v3, e2, h1⟩, h2⟩ := h
      simp at h1 h2
      obtain ⟨rfl, rfl⟩ := h1
      obtain ⟨rfl, rfl⟩ := h2
      obtain ⟨y, rfl, hy⟩ := exists_of_crlf e2
      refine ⟨Frag.endingBytes y, ?_, by simp [exists_of_base64 e1]⟩
      cases y with
      | crlf => exact .inl rfl
      | lf => exact .inr ⟨by simpa using hy, rfl⟩
    · simp only [value, P.bind_apply, Res.andThen_eq_ok] at h
      obtain ⟨_, _, _, h⟩ := h
      simp at h
  · rintro ⟨e, he, rfl⟩
    have hs : Stops (fun b => isBase64Char b || b == 61) (e ++ rem) = true := by
      rcases he with rfl | ⟨-, rfl⟩ <;> rfl
    have hc : crlf (e ++ rem) = .ok rem () := by
      rcases he with rfl | ⟨hq, rfl⟩
      · exact rt_crlf rem
      · simp [crlf, hq, opt, char]
    have := rt_base64 (d := d) hs
    simp [Codec.decode, authenticateData, orElse, this, hc, outcomePlain]

omit [Quirks] in
theorem exists_of_alt {α : Type} {ps : List (P α)} {x r : Bytes} {v : α} (h : alt ps x = .ok r v) : ∃ p ∈ ps, p x = .ok r v := by
  induction ps with
  | nil => simp [alt] at h
  | cons p ps ih =>
    simp only [alt_cons, orElse] at h
    cases e : p x with
    | error =>
      rw [e] at h
      obtain ⟨q, hq, e⟩ := ih h
      exact ⟨q, List.mem_cons_of_mem _ hq, e⟩
    | _ => rw [e] at h; exact ⟨p, by simp, by simp_all⟩

omit [Quirks] in
theorem dropLast_append {s : Bytes} {b : UInt8} (h : s.getLast? = some b) : s.dropLast ++ [b] = s := by
  obtain ⟨ne, h⟩ := List.getLast?_eq_some_iff.1 h
  rw [h]
  simp

omit [Quirks] in
theorem exists_of_takeUntil {pat x r s : Bytes} (h : takeUntil pat x = .ok r s) :
    x = s ++ r ∧ ∃ r', r = pat ++ r' := by
  have key : ∀ (x a b : Bytes), splitOnce pat x = some (a, b) → x = a ++ (pat ++ b) := by
    intro x
    induction x with
    | nil =>
      intro a b h
      simp only [splitOnce] at h
      split at h <;> simp at h
      simp [*]
    | cons c x ih =>
      intro a b h
      simp only [splitOnce] at h
      split at h
      · next hp =>
        simp at h
        obtain ⟨t, ht⟩ := List.isPrefixOf_iff_prefix.1 hp
        rw [h.1, ← h.2, ← ht]
        simp
      · obtain ⟨⟨a', b'⟩, h1, h2⟩ := Option.map_eq_some_iff.1 h
        simp at h2
        rw [← h2.1, ← h2.2, ih _ _ h1]
        simp
  simp only [takeUntil] at h
  split at h <;> simp at h
  next h' =>
  rw [← h.1, ← h.2]
  exact ⟨key _ _ _ h', _, rfl⟩

theorem exists_of_continueReq {x rem d : Bytes} (h : continueReq x = .ok rem (.base64 d)) :
    ∃ e, Spec.Eol e ∧ x = b!"+ " ++ b64Encode d ++ e ++ rem := by
  obtain ⟨y, h1, h2⟩ := exists_of_mapRes h
  cases y with
  | basic y =>
    simp only [ContinueEither.toReq, ContinueReq.ofBasic] at h2
    split at h2
    · simp at h2
    · split at h2 <;> simp at h2
  | base64 d' =>
    simp only [ContinueEither.toReq, Option.some.injEq, ContinueReq.base64.injEq] at h2
    subst h2
    simp only [continueInner, P.bind_apply, Res.andThen_eq_ok] at h1
    obtain ⟨i1, _, e1, i2, v2, e2, i3, _, e3, h4⟩ := h1
    simp at h4
    obtain ⟨rfl, rfl⟩ := h4
    have e1 := exists_of_tag e1
    subst e1
    obtain ⟨y, rfl, hy⟩ := exists_of_crlf e3
    rcases exists_of_alt2 e2 with e2 | e2
    · simp only [P.map_apply, Res.andThen_eq_ok] at e2
      obtain ⟨_, _, e4, h5⟩ := e2
      simp at h5
      obtain ⟨rfl, rfl⟩ := h5
      unfold continueBase64 at e4
      split at e4
      · next hq =>
        obtain ⟨s, h6, h7⟩ := exists_of_mapRes e4
        obtain ⟨rfl, r', h8⟩ := exists_of_takeUntil h6
        have h7 := (C24_base64 _ _).1 h7
        have hy : y = .lf := by
          cases y with
          | lf => rfl
          | crlf => simp [Frag.endingBytes] at h8
        subst hy
        unfold stripCr at h7
        split at h7
        · next hl =>
          refine ⟨b!"\r\n", .inl rfl, ?_⟩
          rw [← h7, List.append_assoc (b!"+ "), List.append_assoc (b!"+ ")]
          have : s.dropLast ++ [13] = s := dropLast_append hl
          conv_lhs => rw [← this]
          simp [Frag.endingBytes]
        · exact ⟨b!"\n", .inr ⟨hq, rfl⟩, by rw [h7]; simp [Frag.endingBytes]⟩
      · next hq =>
        have := hy (by simpa using hq)
        subst this
        obtain ⟨s, h6, h7⟩ := exists_of_mapRes e4
        exact ⟨b!"\r\n", .inl rfl, by rw [(exists_of_takeUntil h6).1, (C24_base64 _ _).1 h7]; simp [Frag.endingBytes]⟩
    · simp only [P.map_apply, Res.andThen_eq_ok] at e2
      obtain ⟨_, _, _, h5⟩ := e2
      simp at h5

/-- C24: the server's data during authentication is accepted exactly in its canonical encoding. -/
theorem C24_continue (x rem d : Bytes) (h : Codec.response.decode x = .ok rem (.continue_ (.base64 d))) :
    ∃ e, Spec.Eol e ∧ x = b!"+ " ++ b64Encode d ++ e ++ rem := by
  have h := ok_of_outcomeResponse (r := response x) h
  obtain ⟨p, hp, e⟩ := exists_of_alt h
  have hp : p = .continue_ <$> emptyContinueReq ∨ p = .continue_ <$> continueReq ∨ p = responseData ∨ p = .status <$> responseDone := by
    split at hp
    · simpa using hp
    · exact .inr (by simpa using hp)
  rcases hp with rfl | rfl | rfl | rfl
  · simp only [P.map_apply, emptyContinueReq, P.bind_apply, Res.andThen_eq_ok] at e
    obtain ⟨_, _, ⟨_, _, _, _, _, _, h1⟩, h2⟩ := e
    simp at h1 h2
    simp [← h1.2] at h2
  · simp only [P.map_apply, Res.andThen_eq_ok] at e
    obtain ⟨_, _, h1, h2⟩ := e
    simp at h2
    obtain ⟨rfl, rfl⟩ := h2
    exact exists_of_continueReq h1
  · simp only [responseData, P.bind_apply, Res.andThen_eq_ok] at e
    obtain ⟨_, _, _, _, _, h1, _, _, _, h2⟩ := e
    simp at h2
    obtain ⟨p, hp, h3⟩ := exists_of_alt h1
    simp at hp
    rcases hp with rfl | rfl | rfl | rfl | rfl | rfl | rfl <;>
    · try replace h3 := (gate_ok h3).2
      simp only [P.map_apply, Res.andThen_eq_ok] at h3
      obtain ⟨_, _, _, h4⟩ := h3
      simp [h2.2] at h4
  · simp only [P.map_apply, Res.andThen_eq_ok] at e
    obtain ⟨_, _, _, h4⟩ := e
    simp at h4

/-- The hypothesis is met by a request with padding. -/
example := @C24_continue Quirks.default b!"+ YWI=\r\n* " b!"* " b!"ab" (by with_unfolding_all rfl)

/-! ### C34 -/

omit [Quirks] in
/-- C34: the output consists of printable ASCII characters. -/
theorem C34_printable (bs : Bytes) : ∀ c ∈ escapeByteString bs, 0x20 ≤ c ∧ c ≤ 0x7e := by
  have key : ∀ b, ∀ c ∈ escapeByte b, 0x20 ≤ c ∧ c ≤ 0x7e := forall_byte (by decide)
  intro c hc
  obtain ⟨l, hl, hc⟩ := List.mem_flatten.1 hc
  obtain ⟨b, -, rfl⟩ := List.mem_map.1 hl
  exact key b c hc

/-- Reads the first byte of what `escapeByte` writes. -/
def unescapeByte : Bytes → Option UInt8
  | 92 :: 120 :: a :: b :: _ => some (unhex a * 16 + unhex b)
  | 92 :: 116 :: _ => some 9
  | 92 :: 110 :: _ => some 10
  | 92 :: 114 :: _ => some 13
  | 92 :: 34 :: _ => some 34
  | 92 :: 92 :: _ => some 92
  | b :: _ => some b
  | [] => none
where unhex (a : UInt8) : UInt8 := if a < 97 then a - 48 else a - 87

omit [Quirks] in
theorem unescapeByte_escapeByte (b : UInt8) (x : Bytes) : unescapeByte (escapeByte b ++ x) = some b := by
  have key : ∀ b, escapeByte b = [b] ∧ b ≠ 92 ∨ escapeByte b = hexEscape b ∨ unescapeByte (escapeByte b) = some b ∧
    escapeByte b ∈ [b!"\\t", b!"\\n", b!"\\r", b!"\\\"", b!"\\\\"] := forall_byte (by decide)
  rcases key b with ⟨h, h'⟩ | h | ⟨h, h'⟩
  · rw [h]
    simp only [List.singleton_append]
    unfold unescapeByte
    split <;> simp_all
  · rw [h]
    have : ∀ b : UInt8, unescapeByte.unhex (hexDigit (b.toNat / 16)) * 16 + unescapeByte.unhex (hexDigit (b.toNat % 16)) = b :=
      forall_byte (by decide)
    simp [hexEscape, unescapeByte, this]
  · simp only [List.mem_cons, List.not_mem_nil, or_false] at h'
    rcases h' with h' | h' | h' | h' | h' <;> rw [h'] at h ⊢ <;> rw [← h] <;> rfl

omit [Quirks] in
/-- C34: different byte strings have different outputs. -/
theorem C34_injective (a b : Bytes) (h : escapeByteString a = escapeByteString b) : a = b := by
  have ne : ∀ c, escapeByte c ≠ [] := forall_byte (by decide)
  induction a generalizing b with
  | nil =>
    cases b with
    | nil => rfl
    | cons c b => simp [escapeByteString, ne] at h
  | cons c a ih =>
    cases b with
    | nil => simp [escapeByteString, ne] at h
    | cons d b =>
      simp only [escapeByteString, List.map_cons, List.flatten_cons] at h
      have h1 := congrArg unescapeByte h
      rw [unescapeByte_escapeByte, unescapeByte_escapeByte, Option.some.injEq] at h1
      subst h1
      rw [ih b (List.append_cancel_left h)]

/-! ### Examples -/

end Imap

namespace Imap.StringsExamples

open Imap Frag

local instance : Quirks := Quirks.default

/-- A state of the Fragmentizer that has received `a LOGIN b c` and CRLF. -/
def sample : State := { State.init none with buffer := b!"a LOGIN b c\r\n" }

/-- The hypotheses of C18. -/
example : sample.decodeTag = some b!"a" := by decide
example : Codec.command.decode sample.buffer = .ok [] ⟨b!"a", .login (.atom b!"b") (.atom b!"c")⟩ := by with_unfolding_all rfl
example : Codec.command.decode { sample with buffer := b!"a LOGIN {5}\r\n" }.buffer = .literalFound (some b!"a") 5 (some .sync) := by
  with_unfolding_all rfl
/-- A space that comes too late, or an invalid tag: there is no tag. -/
example : State.decodeTag { sample with buffer := b!"a\r\nb c\r\n" } = none := by decide
example : State.decodeTag { sample with buffer := b!"+ OK\r\n" } = none := by decide

/-- C23 on a string with both special characters. -/
example : quoted b!"\"a\\\\\\\"b\" c" = .ok b!" c" b!"a\\\"b" := by with_unfolding_all rfl
example : quotedUtf8 b!"\"ä\\\"\" c" = .ok b!" c" b!"ä\"" := by with_unfolding_all rfl

/-- C24: a canonical encoding, and one with trailing bits. -/
example : b64Decode b!"YWI=" = some b!"ab" := by decide
example : b64Decode b!"YWJ=" = none := by decide
example : Codec.authenticateData.decode b!"YWI=\r\n" = .ok [] (.continue_ b!"ab") := by with_unfolding_all rfl
example : Codec.response.decode b!"+ YWI=\r\n" = .ok [] (.continue_ (.base64 b!"ab")) := by with_unfolding_all rfl

/-- C34 on a string with all kinds of bytes. -/
example : escapeByteString b!"a\"\\\r\n\t\x00\x7f" = b!"a\\\"\\\\\\r\\n\\t\\x00\\x7f" := by decide

end Imap.StringsExamples
