import Verif.Kinds
/-
Property C66: the five kinds of messages cannot be confused with each other, with three exceptions, which are exact: greetings with OK and
BYE are also status responses, and the end of IDLE is also data of AUTHENTICATE.
-/
set_option maxRecDepth 10000

namespace Imap

open Imap.Gr
open Imap.Grammar (choice)

/-- The response that looks like the greeting. -/
def Greeting.asResponse : Greeting → Option Response
  | ⟨.ok, code, text⟩ => some (.status (.untagged .ok code text))
  | ⟨.bye, code, text⟩ => some (.status (.bye code text))
  | ⟨.preAuth, _, _⟩ => none

/-- The greeting that looks like the response. -/
def Response.asGreeting : Response → Option Greeting
  | .status (.untagged .ok code text) => some ⟨.ok, code, text⟩
  | .status (.bye code text) => some ⟨.bye, code, text⟩
  | _ => none

variable [Quirks]

/-- C66 for commands: what is decoded as a command is rejected by all other decoders. -/
theorem C66_command (x rest : Bytes) (c : Command) (h : Codec.command.decode x = .ok rest c) :
    Codec.authenticateData.decode x = .failed ∧ Codec.idleDone.decode x = .failed ∧
    Codec.greeting.decode x = .failed ∧ Codec.response.decode x = .failed := by
  obtain ⟨w, rfl, w1, w2, t, rfl, ⟨rfl, ht1, ht2⟩, w3, w4, _, rfl, h2, w5, w6, b, rfl, h3, w7, w8, _, rfl, h4, rfl, rfl⟩ := (C48_command x rest c).1 h
  obtain rfl := sp_word h2
  have ht : isTagStr t = true := by
    simp only [isTagStr, Bool.and_eq_true, List.all_eq_true, Bool.not_eq_true', List.isEmpty_eq_false_iff]
    exact ⟨ht1, fun b hb => (Spec.tagChar_iff b).2 (ht2 b hb)⟩
  obtain ⟨c, i, rfl, hc⟩ := crlf_cases h4
  have hs : Starts T (c :: i ++ rest) := ⟨c, i ++ rest, rfl, by rcases hc with rfl | rfl <;> decide⟩
  have e : t ++ ([32] ++ (w5 ++ (c :: i ++ []))) ++ rest = t ++ 32 :: (w5 ++ (c :: i ++ rest)) := by simp
  rw [e]
  refine ⟨?_, ?_, ?_, ?_⟩
  · rw [Codec.decode, authenticateData_space (noBreak_tag ht)]; rfl
  · rw [Codec.decode, idleDone_space (noBreak_tag ht)]; rfl
  · obtain ⟨b, t, rfl⟩ : ∃ b t', t = b :: t' := by cases t <;> simp at ht1 ⊢
    have key : ∀ b, isTagChar b = true → b ≠ 42 := forall_byte (by decide)
    rw [Codec.decode, List.cons_append, greeting_first (key b (by simp [isTagStr] at ht; exact ht.1))]; rfl
  · rw [Codec.decode, response_tagged ht (condStateKind_command h3 hs)]; rfl

example := @C66_command Quirks.default b!"a NOOP\r\nb" b!"b" ⟨b!"a", .noop⟩ (by with_unfolding_all rfl)

/-- The lines that are data of AUTHENTICATE. -/
theorem authenticateData_line {x rest : Bytes} {d : AuthenticateData} (h : Codec.authenticateData.decode x = .ok rest d) :
    ∃ p lb, x = p ++ lb ++ rest ∧ Grammar.crlf lb () ∧ 32 ∉ p ∧ NoBreak p ∧ p ≠ [43] ∧ (d = .cancel → p = b!"*") := by
  obtain ⟨w, rfl, g, hg, h⟩ := (C48_authenticateData x rest d).1 h
  simp only [List.mem_cons, List.not_mem_nil, or_false] at hg
  rcases hg with rfl | rfl
  · obtain ⟨_, ⟨w1, w2, d, rfl, rfl, w3, w4, _, rfl, h2, rfl, rfl⟩, rfl⟩ := h
    refine ⟨Spec.base64 _, w3, by rw [List.append_nil], h2, fun h => (base64_bytes h).1 rfl, fun b hb => (base64_bytes hb).2, fun e => ?_, fun h => nomatch h⟩
    have := congrArg (· % 4) (congrArg List.length e)
    simp only [base64_length] at this
    exact absurd this (by decide)
  · obtain ⟨w1, w2, a, rfl, ⟨h1, rfl⟩, w3, w4, _, rfl, h2, rfl, rfl⟩ := h
    obtain rfl := symbol_eq (by decide) h1
    exact ⟨b!"*", w3, by simp, h2, by decide, by simp [NoBreak], by decide, fun _ => rfl⟩

/-- C66 for the data of AUTHENTICATE: the decoder of IDLE accepts them if the line is `DONE`, in any letter case; in all other cases, all
other decoders reject them. -/
theorem C66_authenticateData (x rest : Bytes) (d : AuthenticateData) (h : Codec.authenticateData.decode x = .ok rest d) :
    Codec.command.decode x = .failed ∧ Codec.greeting.decode x = .failed ∧ Codec.response.decode x = .failed ∧
    ∃ line lineBreak, x = line ++ lineBreak ++ rest ∧ 13 ∉ line ∧ 10 ∉ line ∧ (lineBreak = b!"\r\n" ∨ lineBreak = b!"\n") ∧
      Codec.idleDone.decode x = if lowerAll line = lowerAll b!"DONE" then .ok rest () else .failed := by
  obtain ⟨p, lb, rfl, hl, h1, h2, h3, -⟩ := authenticateData_line h
  obtain ⟨c, i, e, hc⟩ := crlf_cases hl
  have e' : p ++ lb ++ rest = p ++ c :: (i ++ rest) := by simp [e]
  refine ⟨?_, ?_, ?_, p, lb, rfl, fun h => (h2 _ h).1 rfl, fun h => (h2 _ h).2 rfl, hl.imp id And.right, ?_⟩
  · rw [Codec.decode, e', command_noSpace hc h1]; rfl
  · rw [Codec.decode, e', greeting_noSpace hc h1]; rfl
  · rw [Codec.decode, e', response_noSpace hc h1 h2 h3]; rfl
  · rw [Codec.decode, idleDone_line h2 hl]
    split <;> rfl

example := @C66_authenticateData Quirks.default b!"+A==\r\nb" b!"b" (.continue_ [248]) (by with_unfolding_all rfl)

/-- C66 for the end of IDLE: it is always accepted by the decoder of the data of AUTHENTICATE too, and by no other one. So a server has to
know what it waits for. -/
theorem C66_idleDone (x rest : Bytes) (h : Codec.idleDone.decode x = .ok rest ()) :
    (∃ d, Codec.authenticateData.decode x = .ok rest (.continue_ d)) ∧
    Codec.command.decode x = .failed ∧ Codec.greeting.decode x = .failed ∧ Codec.response.decode x = .failed := by
  have key : ∃ d, Codec.authenticateData.decode x = .ok rest (.continue_ d) := by
    obtain ⟨w, rfl, w1, w2, _, rfl, h1, h2⟩ := (C48_idleDone x rest ()).1 h
    have e : ∃ d, w1 = Spec.base64 d := by
      have hd : ∀ b ∈ b!"dD", ∀ b1 ∈ b!"oO", ∀ b2 ∈ b!"nN", ∀ b3 ∈ b!"eE",
          [b, b1, b2, b3] = Spec.base64 ((b64Decode [b, b1, b2, b3]).getD []) := by decide +kernel
      have h1 : lowerAll w1 = lowerAll b!"DONE" := h1
      obtain ⟨a, b, c, d, rfl⟩ : ∃ a b c d, w1 = [a, b, c, d] := by
        have l := congrArg List.length h1
        simp only [lowerAll, List.length_map] at l
        match w1, l with
        | [a, b, c, d], _ => exact ⟨a, b, c, d, rfl⟩
      simp only [lowerAll, List.map_cons, List.map_nil, List.cons.injEq, and_true] at h1
      have m : ∀ {x y : UInt8}, lower x = lower y → x ∈ [lower y, upper y] := fun h => by rcases lower_eq h with e | e <;> simp [e]
      exact ⟨_, hd a (m h1.1) b (m h1.2.1) c (m h1.2.2.1) d (m h1.2.2.2)⟩
    obtain ⟨d, e⟩ := e
    exact ⟨d, (C48_authenticateData _ rest _).2 ⟨_, rfl, _, List.mem_cons_self .., d, ⟨w1, w2, d, rfl, e, w2, [], (), by simp, h2, rfl, rfl⟩, rfl⟩⟩
  obtain ⟨d, hd⟩ := key
  have := C66_authenticateData x rest _ hd
  exact ⟨⟨d, hd⟩, this.1, this.2.1, this.2.2.1⟩

example := @C66_idleDone Quirks.default b!"doNe\r\nb" b!"b" (by with_unfolding_all rfl)

/-- C66 for greetings: no decoder of client messages accepts them. The decoder of responses does, with the same code and text, unless the
greeting is PREAUTH. -/
theorem C66_greeting (x rest : Bytes) (g : Greeting) (h : Codec.greeting.decode x = .ok rest g) :
    Codec.command.decode x = .failed ∧ Codec.authenticateData.decode x = .failed ∧ Codec.idleDone.decode x = .failed ∧
    Codec.response.decode x = g.asResponse.elim .failed (.ok rest) := by
  obtain ⟨w, rfl, w1, w2, _, rfl, h1, w3, w4, k, rfl, ⟨g', hg, hk⟩, w5, w6, ⟨c, t⟩, rfl, h5, w7, w8, _, rfl, h7, rfl, rfl⟩ := (C49_greeting x rest g).1 h
  obtain rfl := symbol_eq (by decide) h1
  have hc := client_symbol (b := 42) (.inl rfl) (w3 ++ (w5 ++ w7) ++ rest)
  have e : b!"* " ++ (w3 ++ (w5 ++ (w7 ++ []))) ++ rest = 42 :: 32 :: (w3 ++ (w5 ++ w7) ++ rest) := by simp
  refine ⟨?_, ?_, ?_, ?_⟩
  · rw [e, Codec.decode, hc.1]; rfl
  · rw [e, Codec.decode, hc.2.1]; rfl
  · rw [e, Codec.decode, hc.2.2]; rfl
  simp only [List.mem_cons, List.not_mem_nil, or_false] at hg
  rcases hg with rfl | rfl | rfl <;> obtain ⟨hk, rfl⟩ := hk
  · refine (C49_response _ rest _).2 ⟨_, rfl, _, List.mem_cons_of_mem _ (List.mem_cons_self ..), b!"* ", _, (), rfl, h1, w3 ++ w5, w7, _,
      by simp, ⟨_, List.mem_cons_self .., w3, w5, .ok, rfl, ⟨_, List.mem_cons_self .., hk, rfl⟩, w5, [], (c, t), by simp, h5, rfl, rfl⟩,
      w7, [], (), by simp, h7, rfl, rfl⟩
  · rw [e, Codec.decode, response_preauth ⟨w3, w5 ++ w7 ++ rest, by simp, hk⟩]; rfl
  · refine (C49_response _ rest _).2 ⟨_, rfl, _, List.mem_cons_of_mem _ (List.mem_cons_self ..), b!"* ", _, (), rfl, h1, w3 ++ w5, w7, _,
      by simp, ⟨_, List.mem_cons_of_mem _ (List.mem_cons_self ..), w3, w5, (), rfl, hk, w5, [], (c, t), by simp, h5, rfl, rfl⟩,
      w7, [], (), by simp, h7, rfl, rfl⟩

example := @C66_greeting Quirks.default b!"* ok [ALERT] hello\r\n" [] ⟨.ok, some .alert, b!"hello"⟩ (by with_unfolding_all rfl)
example := @C66_greeting Quirks.default b!"* preauth hello\r\n" [] ⟨.preAuth, none, b!"hello"⟩ (by with_unfolding_all rfl)

/-- C66 for responses: no decoder of client messages accepts them. The decoder of greetings accepts OK without a tag, and BYE, with the same
code and text, and rejects all others. -/
theorem C66_response (x rest : Bytes) (r : Response) (h : Codec.response.decode x = .ok rest r) :
    Codec.command.decode x = .failed ∧ Codec.authenticateData.decode x = .failed ∧ Codec.idleDone.decode x = .failed ∧
    Codec.greeting.decode x = r.asGreeting.elim .failed (.ok rest) := by
  obtain ⟨w, rfl, g, hg, h'⟩ := (C49_response x rest r).1 h
  clear h
  rename' h' => h
  simp only [List.mem_cons, List.not_mem_nil, or_false] at hg
  rcases hg with rfl | rfl | rfl
  · obtain ⟨a, h, rfl⟩ := h
    rcases (continueReq_iff ..).1 h with h | ⟨-, w1, w2, _, rfl, h1, w3, w4, _, rfl, h3, rfl, rfl⟩
    · obtain ⟨k, hk, w1, w2, rfl, h1⟩ := (inferInstance : Begs0 gContinue [b!"+ "]).out h
      simp only [List.mem_singleton] at hk
      subst hk
      obtain rfl := symbol_eq (by decide) h1
      have hc := client_symbol (b := 43) (.inr rfl) (w2 ++ rest)
      have e : b!"+ " ++ w2 ++ rest = 43 :: 32 :: (w2 ++ rest) := rfl
      refine ⟨?_, ?_, ?_, ?_⟩
      · rw [e, Codec.decode, hc.1]; rfl
      · rw [e, Codec.decode, hc.2.1]; rfl
      · rw [e, Codec.decode, hc.2.2]; rfl
      · rw [e, Codec.decode, greeting_first (by decide)]; rfl
    · obtain rfl := symbol_eq (by decide) h1
      obtain ⟨c, i, rfl, hl⟩ := crlf_cases h3
      have hc := client_plus hl (i ++ rest)
      have e : b!"+" ++ (c :: i ++ []) ++ rest = 43 :: c :: (i ++ rest) := by simp
      refine ⟨?_, ?_, ?_, ?_⟩
      · rw [e, Codec.decode, hc.1]; rfl
      · rw [e, Codec.decode, hc.2.1]; rfl
      · rw [e, Codec.decode, hc.2.2]; rfl
      · rw [e, Codec.decode, greeting_first (by decide)]; rfl
  · obtain ⟨w1, w2, _, rfl, h1, w3, w4, r, rfl, ⟨g, hg, h3⟩, w5, w6, _, rfl, h5, rfl, rfl⟩ := h
    obtain rfl := symbol_eq (by decide) h1
    have hc := client_symbol (b := 42) (.inl rfl) (w3 ++ w5 ++ rest)
    have e : b!"* " ++ (w3 ++ (w5 ++ [])) ++ rest = 42 :: 32 :: (w3 ++ w5 ++ rest) := by simp
    refine ⟨?_, ?_, ?_, ?_⟩
    · rw [e, Codec.decode, hc.1]; rfl
    · rw [e, Codec.decode, hc.2.1]; rfl
    · rw [e, Codec.decode, hc.2.2]; rfl
    simp only [List.mem_cons, List.not_mem_nil, or_false] at hg
    rcases hg with rfl | rfl | rfl
    · obtain ⟨w1, w2, k, rfl, ⟨g, hg, hk⟩, w3, w4, ⟨c, t⟩, rfl, h4, rfl, rfl⟩ := h3
      have star : ∀ {k : Bytes}, lowerAll w1 = lowerAll k → (greetingHeads.all fun e => diverges e k) = true →
          Codec.greeting.decode (42 :: 32 :: (w1 ++ (w3 ++ []) ++ w5 ++ rest)) = .failed := by
        intro k hk hd
        rw [Codec.decode, greeting_star ⟨w1, w3 ++ w5 ++ rest, by simp, hk⟩ hd]; rfl
      simp only [List.mem_cons, List.not_mem_nil, or_false] at hg
      rcases hg with rfl | rfl | rfl <;> obtain ⟨hk, rfl⟩ := hk
      · exact (C49_greeting _ rest _).2 ⟨_, rfl, b!"* ", _, (), rfl, h1, w1, w3 ++ w5, .ok, by simp, ⟨_, List.mem_cons_self .., hk, rfl⟩,
          w3, w5, (c, t), rfl, h4, w5, [], (), by simp, h5, rfl, rfl⟩
      · rw [e, star hk (by decide)]; rfl
      · rw [e, star hk (by decide)]; rfl
    · obtain ⟨w1, w2, _, rfl, hk, w3, w4, ⟨c, t⟩, rfl, h4, rfl, rfl⟩ := h3
      exact (C49_greeting _ rest _).2 ⟨_, rfl, b!"* ", _, (), rfl, h1, w1, w3 ++ w5, .bye, by simp,
        ⟨_, List.mem_cons_of_mem _ (List.mem_cons_of_mem _ (List.mem_cons_self ..)), hk, rfl⟩,
        w3, w5, (c, t), rfl, h4, w5, [], (), by simp, h5, rfl, rfl⟩
    · have hd : (dataHeads.all fun k => greetingHeads.all fun e => diverges e k) = true := by decide +kernel
      obtain ⟨k, hk, hb⟩ := (inferInstance : Begs0 (choice gData) dataHeads).out ((data_iff ..).1 h3)
      obtain ⟨d, -, rfl⟩ := h3
      rw [e, Codec.decode, List.append_assoc, greeting_star (hb.append _) (List.all_eq_true.1 hd k hk)]; rfl
  · obtain ⟨s, ⟨w1, w2, t, rfl, ⟨rfl, ht1, ht2⟩, w3, w4, _, rfl, h3, w5, w6, k, rfl, ⟨g, hg, hk⟩, w7, w8, ⟨c, txt⟩, rfl, h7, w9, w10, _, rfl, h9, rfl, rfl⟩, rfl⟩ := h
    obtain rfl := sp_word h3
    have ht : isTagStr t = true := by
      simp only [isTagStr, Bool.and_eq_true, List.all_eq_true, Bool.not_eq_true', List.isEmpty_eq_false_iff]
      exact ⟨ht1, fun b hb => (Spec.tagChar_iff b).2 (ht2 b hb)⟩
    have e : t ++ ([32] ++ (w5 ++ (w7 ++ (w9 ++ [])))) ++ rest = t ++ 32 :: (w5 ++ (w7 ++ w9 ++ rest)) := by simp
    rw [e]
    refine ⟨?_, ?_, ?_, ?_⟩
    · simp only [List.mem_cons, List.not_mem_nil, or_false] at hg
      rcases hg with rfl | rfl | rfl <;> obtain ⟨hk, rfl⟩ := hk <;>
        (rw [Codec.decode, command_tagged ht (by decide) ⟨w5, _, rfl, hk⟩]; rfl)
    · rw [Codec.decode, authenticateData_space (noBreak_tag ht)]; rfl
    · rw [Codec.decode, idleDone_space (noBreak_tag ht)]; rfl
    · obtain ⟨b, t, rfl⟩ : ∃ b t', t = b :: t' := by cases t <;> simp at ht1 ⊢
      have key : ∀ b, isTagChar b = true → b ≠ 42 := forall_byte (by decide)
      rw [Codec.decode, List.cons_append, greeting_first (key b (by simp [isTagStr] at ht; exact ht.1))]; rfl

example := @C66_response Quirks.default b!"* bye [ALERT] hello\r\n" [] (.status (.bye (some .alert) b!"hello")) (by with_unfolding_all rfl)
example := @C66_response Quirks.default b!"* 3 EXISTS\r\n" [] (.data (.exists_ 3)) (by with_unfolding_all rfl)
example := @C66_response Quirks.default b!"a OK hello\r\n" [] (.status (.tagged b!"a" .ok none b!"hello")) (by with_unfolding_all rfl)

end Imap
