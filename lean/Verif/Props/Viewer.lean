import Verif.ViewerLemmas
/-
Property C53: what the loop of the example client prints.

The loop is modelled in Verif/Viewer.lean; what it should print is specified in Verif/ViewerSpec.lean (`shown`), and which messages
can be recovered from a stream in Verif/FragEncSpec.lean (`Transmissible`).
-/
set_option maxRecDepth 10000

namespace Imap

open Frag

section

variable [Quirks]

/-- C53: whatever the chunks that the client receives, also from a server that does not follow the protocol: it reads all of them, and
then what it has printed is what should be printed for the complete messages in the bytes received, in order. -/
theorem C53_shows_messages (max : Nat) (chunks : List Bytes) :
    ∃ ms u, chunks.flatten = ms.flatten ++ u ∧ (∀ m ∈ ms, IsMessage m) ∧ IsUnfinished u ∧
      ∃ n, ∀ k, n ≤ k →
        (Viewer.after k (Viewer.init max, chunks)).2 = [] ∧ (Viewer.after k (Viewer.init max, chunks)).1.log = shown max ms := by
  obtain ⟨n, ms, u, h1, h2, h3, h4⟩ := viewer_final (max := max) chunks
  exact ⟨ms, u, h1, h2, h3, n, fun k hk => ⟨(h4 k hk).2, (h4 k hk).1⟩⟩

omit [Quirks] in
/-- C53: there is only one way to cut bytes into complete messages and the start of a message. -/
theorem C53_messages_unique (ms ms' : List Bytes) (u u' : Bytes) (h : ∀ m ∈ ms, IsMessage m) (h' : ∀ m ∈ ms', IsMessage m)
    (hu : IsUnfinished u) (hu' : IsUnfinished u') (e : ms.flatten ++ u = ms'.flatten ++ u') : ms = ms' ∧ u = u' := by
  have h1 := split_prefix h h' hu' e
  have h2 := split_prefix h' h hu e.symm
  obtain rfl : ms = ms' := h1.eq_of_length_le h2.length_le
  exact ⟨rfl, List.append_cancel_left e⟩

/-- C53: at each moment, the client has printed what should be printed for the first messages in the bytes. -/
theorem C53_shows_in_order (max : Nat) (chunks : List Bytes) (ms : List Bytes) (u : Bytes) (e : chunks.flatten = ms.flatten ++ u)
    (h : ∀ m ∈ ms, IsMessage m) (hu : IsUnfinished u) (n : Nat) :
    ∃ first, first <+: ms ∧ (Viewer.after n (Viewer.init max, chunks)).1.log = shown max first := by
  obtain ⟨ms', cur, infos, hv⟩ := viewerInv_after (max := max) chunks n
  refine ⟨ms' ++ if (Viewer.after n (Viewer.init max, chunks)).1.frag.complete then [cur] else [], ?_, hv.log⟩
  have hb := hv.bytes
  cases hc : (Viewer.after n (Viewer.init max, chunks)).1.frag.complete with
  | false =>
    rw [e, List.append_assoc, List.append_assoc] at hb
    have := split_prefix hv.messages h hu hb.symm
    simpa [hc] using this
  | true =>
    have ha := hv.inv.agrees
    rw [State.complete, Option.isNone_iff_eq_none] at hc
    rw [hc] at ha
    refine split_prefix (ms := ms' ++ [cur]) (r := (Viewer.after n (Viewer.init max, chunks)).1.frag.unparsed ++
      (Viewer.after n (Viewer.init max, chunks)).2.flatten) ?_ h hu ?_
    · intro m hm
      rcases List.mem_append.1 hm with hm | hm
      · exact hv.messages m hm
      · rw [List.mem_singleton] at hm
        subst hm
        exact ⟨_, ha⟩
    · rw [← e, hb]; simp

/-- C53: what is printed depends only on the bytes, not on how they are cut into chunks. -/
theorem C53_chunks (max : Nat) (chunks chunks' : List Bytes) (e : chunks.flatten = chunks'.flatten) :
    ∃ n, ∀ k, n ≤ k →
      (Viewer.after k (Viewer.init max, chunks)).1.log = (Viewer.after k (Viewer.init max, chunks')).1.log := by
  obtain ⟨ms, u, h1, h2, h3, n, h4⟩ := C53_shows_messages max chunks
  obtain ⟨ms', u', h1', h2', h3', n', h4'⟩ := C53_shows_messages max chunks'
  obtain ⟨rfl, -⟩ := C53_messages_unique ms ms' u u' h2 h2' h3 h3' (by rw [← h1, ← h1', e])
  exact ⟨n + n', fun k hk => by rw [(h4 k (by omega)).2, (h4' k (by omega)).2]⟩

/-- C53: when a server sends a greeting and responses that the client can receive, then, whatever the chunks, at each moment the client
has printed a part of them, in order and unchanged, and finally all of them. -/
theorem C53_conversation (max : Nat) (g : Greeting) (rs : List Response)
    (hg : Supported .greeting g ∧ Transmissible ⟨.greeting, g⟩ ∧ (dump (Codec.greeting.encode g)).length ≤ max)
    (hr : ∀ r ∈ rs, Supported .response r ∧ Transmissible ⟨.response, r⟩ ∧ (dump (Codec.response.encode r)).length ≤ max)
    (chunks : List Bytes) (hc : chunks.flatten = dump (Codec.greeting.encode g) ++ rs.flatMap fun r => dump (Codec.response.encode r)) :
    (∀ n, (Viewer.after n (Viewer.init max, chunks)).1.log <+:
      .greeting (Codec.greeting.norm g) :: rs.map fun r => .response (Codec.response.norm r)) ∧
    ∃ n, ∀ k, n ≤ k → (Viewer.after k (Viewer.init max, chunks)).1.log =
      .greeting (Codec.greeting.norm g) :: rs.map fun r => .response (Codec.response.norm r) := by
  have hms : ∀ m ∈ dump (Codec.greeting.encode g) :: rs.map (fun r => dump (Codec.response.encode r)), IsMessage m := by
    intro m hm
    rcases List.mem_cons.1 hm with rfl | hm
    · exact isMessage_encode hg.2.1
    · obtain ⟨r, hr', rfl⟩ := List.mem_map.1 hm
      exact isMessage_encode (hr r hr').2.1
  have hun : IsUnfinished [] := ⟨_, .inLine (by simp)⟩
  have hb : chunks.flatten = (dump (Codec.greeting.encode g) :: rs.map (fun r => dump (Codec.response.encode r))).flatten ++ [] := by
    rw [hc, List.flatMap_def]; simp
  have hshown : shown max (dump (Codec.greeting.encode g) :: rs.map (fun r => dump (Codec.response.encode r))) =
      .greeting (Codec.greeting.norm g) :: rs.map fun r => .response (Codec.response.norm r) := by
    simp only [shown, whole_encode .greeting g hg.1 hg.2.2, List.map_map, List.cons.injEq, true_and]
    refine List.map_congr_left fun r hr' => ?_
    simp only [Function.comp, shownResponse, whole_encode .response r (hr r hr').1 (hr r hr').2.2]
  refine ⟨fun n => ?_, ?_⟩
  · obtain ⟨first, h1, h2⟩ := C53_shows_in_order max chunks _ _ hb hms hun n
    rw [h2, ← hshown]
    exact shown_prefix h1
  · obtain ⟨ms, u, h1, h2, h3, n, h4⟩ := C53_shows_messages max chunks
    obtain ⟨rfl, -⟩ := C53_messages_unique ms _ u [] h2 hms h3 hun (by rw [← h1, ← hb])
    exact ⟨n, fun k hk => by rw [(h4 k hk).2, hshown]⟩

end

section

attribute [local instance] Quirks.default

private def exGreeting : Greeting := ⟨.ok, none, b!"hi"⟩

private def exResponse : Response := .data (.list [] (some 47) (.other (.string (.literal ⟨b!"a\r\n* OK b\r\n", .sync⟩))))

private theorem exGreeting_ok : Supported .greeting exGreeting ∧ Transmissible ⟨.greeting, exGreeting⟩ ∧
    (dump (Codec.greeting.encode exGreeting)).length ≤ 40 := by
  refine ⟨(Spec.RespText.inv_iff _ _).1 (by decide), ⟨?_, supported_fits (k := .greeting) ((Spec.RespText.inv_iff _ _).1 (by decide)), ?_⟩,
    by with_unfolding_all decide⟩
  · exact ⟨by decide, by simp [exGreeting, Spec.Opt], fun h => nomatch h⟩
  · intro t ht a ha
    cases ht
    rw [show exGreeting.text ++ b!"\r\n" = b!"hi\r" ++ b!"\n" from rfl, announces_body] at ha
    cases ha.symm.trans (rfl : annOf (scan .other b!"hi\r") = none)

private theorem exResponse_ok : Supported .response exResponse ∧ Transmissible ⟨.response, exResponse⟩ ∧
    (dump (Codec.response.encode exResponse)).length ≤ 40 := by
  have h : Supported .response exResponse := (Spec.Response.inv_iff exResponse).1 (by decide)
  refine ⟨h, ⟨?_, supported_fits (k := .response) h, nofun⟩, by with_unfolding_all decide⟩
  obtain ⟨h1, h2, h3, h4⟩ := h
  exact ⟨h1, h2, ⟨h3.1, fun h => nomatch h⟩, h4⟩

/-- C53 on a greeting and a response with a literal that looks like another response, in three chunks. -/
example := C53_conversation 40 exGreeting [exResponse] exGreeting_ok (by simpa using exResponse_ok)
  [b!"* OK hi\r\n* LIST () ", b!"\"/\" {11}\r\na\r\n* ", b!"OK b\r\n\r\n"] (by with_unfolding_all rfl)

/-- How much the client has printed in this case after each iteration. -/
example : (List.range 9).map (fun n => (Viewer.after n (Viewer.init 40,
    [b!"* OK hi\r\n* LIST () ", b!"\"/\" {11}\r\na\r\n* ", b!"OK b\r\n\r\n"])).1.log.length) = [0, 0, 1, 1, 1, 1, 1, 2, 2] := by
  decide +kernel

/-- What should be printed when the first messages are not a greeting, and a response is too long. -/
example : shown 20 [b!"* 1 EXISTS\r\n", b!"\n", b!"* BYE\r\n", b!"* OK hi\r\n", b!"* 1 EXISTS\r\n", b!"* OK 12345678901234567890\r\n",
      b!"* OK hi\r\n"] =
    [.badGreeting, .badGreeting, .badGreeting, .greeting exGreeting, .response (.data (.exists_ 1)), .badResponse,
      .response (.status (.untagged .ok none b!"hi"))] := by
  with_unfolding_all rfl

end

end Imap
