import Verif.WellFormedLemmas
import Verif.ModSeq
import Verif.Props.Stability
import Verif.Props.Sequence
/-
Properties C01 to C04, C10 and C11: encoding followed by decoding, decoding followed by encoding, and the invariants of decoded messages.

`WellFormed` and `Supported` are specified in Verif/WellFormed.lean.
-/
set_option maxRecDepth 10000

namespace Imap

variable [Quirks]

/-- The message that the decoder returns for an encoded message. It differs from the message only if the quirk
`always_normalize_sequence_sets` is on (then each sequence set is normalized) or the quirk `id_empty_to_nil` is on (then an empty list
of ID parameters is replaced by NIL). -/
def Codec.norm : (k : Codec) → k.Message → k.Message
  | .greeting, g => Greeting.norm g
  | .command, c => Command.norm c
  | .authenticateData, d => d
  | .response, r => Response.norm r
  | .idleDone, u => u

/-! ### C10 -/

theorem command_canon {x r : Bytes} {c : Command} (h : command x = .ok r c) : c.valid = true := by
  rcases command_cases x with ⟨t, i, rfl, ht, hc⟩ | hc | hc
  · have h0 := hc []
    simp only [List.append_nil, h] at h0
    have h1 := fillTag_ok.1 h0.symm
    simp only [taggedBody, P.bind_apply, Res.andThen_eq_ok] at h1
    obtain ⟨v, j, h2, h3⟩ := h1
    simp only [P.pure_apply, Res.ok.injEq] at h3
    obtain ⟨_, rfl⟩ := h3
    have := (Canon.post (p := commandBody)) _ _ _ h2
    simp [Command.valid, ht, this]
  · rw [hc] at h; simp at h
  · have := hc []
    simp [h] at this

omit [Quirks] in
/-- The parser behind a decoded message. -/
theorem ok_of_outcomePlain {α : Type} {r : Res α} {rem : Bytes} {m : α} (h : outcomePlain r = .ok rem m) : r = .ok rem m := by
  cases r <;> simp_all [outcomePlain]

omit [Quirks] in
theorem ok_of_outcomeCommand {α : Type} {r : Res α} {rem : Bytes} {m : α} (h : outcomeCommand r = .ok rem m) : r = .ok rem m := by
  cases r with
  | failure k => rcases k with ⟨_ | _, _, _⟩ | _ | _ | _ | _ <;> simp [outcomeCommand] at h
  | _ => simp_all [outcomeCommand]

omit [Quirks] in
theorem ok_of_outcomeResponse {α : Type} {r : Res α} {rem : Bytes} {m : α} (h : outcomeResponse r = .ok rem m) : r = .ok rem m := by
  cases r with
  | failure k => cases k <;> simp [outcomeResponse] at h
  | _ => simp_all [outcomeResponse]

/-- Each decoded message is supported, except for the item MODSEQ of FETCH responses. -/
theorem decoded_valid (k : Codec) (x rem : Bytes) (m : k.Message) (h : k.decode x = .ok rem m) :
    WellFormed k m ∧ (Supported k m ∨ ∃ r : Response, k = .response ∧ HEq m r ∧ r.valid = true ∧ r.noModSeq = false) := by
  cases k with
  | greeting =>
    have h1 := (Canon.post (p := greeting)) _ _ _ (ok_of_outcomePlain (r := greeting x) h)
    have h2 := (Spec.RespText.inv_iff _ _).1 h1
    exact ⟨Spec.RespText.mono h2, .inl h2⟩
  | command =>
    have h2 := (Spec.Command.inv_iff _).1 (command_canon (ok_of_outcomeCommand (r := command x) h))
    exact ⟨Spec.Command.mono h2, .inl h2⟩
  | authenticateData => exact ⟨trivial, .inl trivial⟩
  | response =>
    have h1 := (Canon.post (p := response)) _ _ _ (ok_of_outcomeResponse (r := response x) h)
    refine ⟨Spec.Response.inv_of_valid h1, ?_⟩
    cases h2 : Response.noModSeq m with
    | true => exact .inl ((Spec.Response.inv_iff _).1 (by rw [h1, h2]; rfl))
    | false => exact .inr ⟨m, rfl, .rfl, h1, h2⟩
  | idleDone => exact ⟨trivial, .inl trivial⟩

/-- C10. Each decoded message satisfies the invariants of its type. -/
theorem C10_decoded_well_formed (k : Codec) (x rem : Bytes) (m : k.Message) (h : k.decode x = .ok rem m) : WellFormed k m :=
  (decoded_valid k x rem m h).1

/-- The hypothesis is met by a command with a sequence set. -/
example := @C10_decoded_well_formed Quirks.default .command b!"A STORE 3:*,1 +FLAGS (\\Seen x)\r\n" []
  ⟨b!"A", .store [.range (.value 3) .asterisk, .single (.value 1)] .add .answer [.seen, .keyword b!"x"] false []⟩ (by with_unfolding_all rfl)

/-! ### C01 to C04 -/

/-- A decidable form of the hypothesis of the round trip, for commands. -/
theorem supported_command (c : Command) (h : c.valid = true) : Supported .command c := (Spec.Command.inv_iff c).1 h

/-- The same for responses. -/
theorem supported_response (r : Response) (h : (r.valid && r.noModSeq) = true) : Supported .response r :=
  (Spec.Response.inv_iff r).1 h

/-- The same for greetings. -/
theorem supported_greeting (g : Greeting) (h : validRespText g.code g.text = true) : Supported .greeting g :=
  (Spec.RespText.inv_iff _ _).1 h

/-- The common part of C01 to C04. -/
theorem round_trip (k : Codec) (m : k.Message) (h : Supported k m) (rest : Bytes) :
    k.decode (dump (k.encode m) ++ rest) = .ok rest (k.norm m) := by
  unfold Codec.encode
  rw [dump_fragments]
  cases k with
  | greeting =>
    have := rt_greeting (r := rest) ((Spec.RespText.inv_iff _ _).2 h)
    simp [Codec.decode, Codec.enc, Codec.norm, this, outcomePlain]
  | command =>
    have := rt_command (r := rest) ((Spec.Command.inv_iff _).2 h)
    simp [Codec.decode, Codec.enc, Codec.norm, this, outcomeCommand]
  | authenticateData => simp [Codec.decode, Codec.enc, Codec.norm, rt_authenticateData, outcomePlain]
  | response =>
    have h1 := (Spec.Response.inv_iff _).2 h
    simp only [Bool.and_eq_true] at h1
    have := rt_response (r := rest) h1.1 h1.2
    simp [Codec.decode, Codec.enc, Codec.norm, this, outcomeResponse]
  | idleDone => simp [Codec.decode, Codec.enc, Codec.norm, rt_idleDone, outcomePlain]

/-- The exact domain of the round trip: a message is decoded back to itself iff it is supported and not changed by the two
quirks. -/
theorem round_trip_iff (k : Codec) (m : k.Message) :
    k.decode (dump (k.encode m)) = .ok [] m ↔ Supported k m ∧ k.norm m = m := by
  constructor
  · intro h
    have hs : Supported k m := by
      rcases (decoded_valid k _ _ m h).2 with hs | ⟨r, rfl, hr, h1, h2⟩
      · exact hs
      · cases hr
        have e := response_modSeq (r := []) h1 h2
        have h' : outcomeResponse (response (dump (fragments (Response.enc r)))) = .ok [] r := h
        rw [dump_fragments] at h'
        rw [List.append_nil] at e
        rw [e] at h'
        simp [outcomeResponse] at h'
    refine ⟨hs, ?_⟩
    have := round_trip k m hs []
    rw [List.append_nil, h] at this
    simpa using this.symm
  · rintro ⟨h, hn⟩
    have := round_trip k m h []
    rwa [List.append_nil, hn] at this

/-- For the response with MODSEQ: each of its encodings is rejected. -/
theorem modSeq_failed (r : Response) (h1 : r.valid = true) (h2 : r.noModSeq = false) (rest : Bytes) :
    Codec.response.decode (dump (Codec.response.encode r) ++ rest) = .failed := by
  simp only [Codec.encode, Codec.enc, Codec.decode, dump_fragments, response_modSeq h1 h2, outcomeResponse]

/-! #### The normalization -/

theorem normSet_normSet {s : SequenceSet} (h : s.wf = true) : normSet (normSet s) = normSet s := by
  unfold normSet
  split
  · exact C22_normalize_idempotent s h _ (List.Perm.refl _) _ sortByKey_sorts _ (List.Perm.refl _) _ sortByKey_sorts
  · rfl

theorem normSet_off (hq : Quirks.alwaysNormalizeSequenceSets = false) : normSet = id := by
  funext s; simp [normSet, hq]

/-- If the quirk is off then no set changes. -/
theorem SelectParameter.norm_off (hq : Quirks.alwaysNormalizeSequenceSets = false) (p : SelectParameter) : p.norm = p := by
  cases p with
  | condStore => rfl
  | qresync u m k s => simp [SelectParameter.norm, normSet_off hq]

theorem SearchKey.norm_off (hq : Quirks.alwaysNormalizeSequenceSets = false) : ∀ k : SearchKey, k.norm = k
  | .not k => by simp [SearchKey.norm, SearchKey.norm_off hq k]
  | .or a b => by simp [SearchKey.norm, SearchKey.norm_off hq a, SearchKey.norm_off hq b]
  | .and ks => by simp [SearchKey.norm, goOff ks]
  | .sequenceSet s => by simp [SearchKey.norm, normSet_off hq]
  | .uid s => by simp [SearchKey.norm, normSet_off hq]
  | .all | .answered | .bcc _ | .before _ | .body _ | .cc _ | .deleted | .draft | .flagged | .from_ _ | .header _ _ | .keyword _
  | .larger _ | .new | .old | .on _ | .recent | .seen | .sentBefore _ | .sentOn _ | .sentSince _ | .since _ | .smaller _
  | .subject _ | .text _ | .to _ | .unanswered | .undeleted | .undraft | .unflagged | .unkeyword _ | .unseen | .modSequence _ _ => by
    simp [SearchKey.norm]
where
  goOff : ∀ l, SearchKey.norm.go l = l
    | [] => rfl
    | k :: l => by simp [SearchKey.norm.go, SearchKey.norm_off hq k, goOff l]

theorem Code.norm_off (hq : Quirks.alwaysNormalizeSequenceSets = false) (c : Code) : c.norm = c := by
  cases c <;> simp [Code.norm, normSet_off hq]

/-- If the two quirks are off then the decoder returns the encoded message itself. -/
theorem Codec.norm_off (hq : Quirks.alwaysNormalizeSequenceSets = false) (hi : Quirks.idEmptyToNil = false) (k : Codec)
    (m : k.Message) : k.norm m = m := by
  have e1 : Code.norm = id := funext (Code.norm_off hq)
  have e2 : SelectParameter.norm = id := funext (SelectParameter.norm_off hq)
  have e3 : SearchKey.norm = id := funext (SearchKey.norm_off hq)
  cases k with
  | greeting => simp [Codec.norm, Greeting.norm, e1]
  | command =>
    obtain ⟨t, b⟩ := m
    simp only [Codec.norm, Command.norm, Command.mk.injEq, true_and]
    cases b with
    | id l => rcases l with _ | _ | _ <;> simp [CommandBody.norm, hi]
    | _ => simp [CommandBody.norm, normSet_off hq, e2, e3]
  | authenticateData => rfl
  | response =>
    cases m with
    | continue_ c => cases c <;> simp [Codec.norm, Response.norm, ContinueReq.norm, e1]
    | status c => cases c <;> simp [Codec.norm, Response.norm, Status.norm, e1]
    | data d =>
      simp only [Codec.norm, Response.norm, Response.data.injEq]
      cases d with
      | id_ l => rcases l with _ | _ | _ <;> simp [Data.norm, hi]
      | _ => simp [Data.norm, normSet_off hq]
  | idleDone => rfl

theorem SelectParameter.norm_norm {p : SelectParameter} (h : p.valid = true) : p.norm.norm = p.norm := by
  cases p with
  | condStore => rfl
  | qresync u m k s =>
    simp only [SelectParameter.valid, Bool.and_eq_true] at h
    cases k with
    | none =>
      cases s with
      | none => rfl
      | some s =>
        have := h.2
        simp only [isSetPairOpt, Bool.and_eq_true] at this
        simp [SelectParameter.norm, normSet_normSet this.1, normSet_normSet this.2]
    | some k =>
      have h1 := normSet_normSet h.1.2
      cases s with
      | none => simp [SelectParameter.norm, h1]
      | some s =>
        have := h.2
        simp only [isSetPairOpt, Bool.and_eq_true] at this
        simp [SelectParameter.norm, h1, normSet_normSet this.1, normSet_normSet this.2]

theorem SearchKey.norm_norm : ∀ k : SearchKey, k.valid = true → k.norm.norm = k.norm
  | .not k, h => by
    simp only [SearchKey.valid] at h
    simp [SearchKey.norm, SearchKey.norm_norm k h]
  | .or a b, h => by
    simp only [SearchKey.valid, Bool.and_eq_true] at h
    simp [SearchKey.norm, SearchKey.norm_norm a h.1, SearchKey.norm_norm b h.2]
  | .and ks, h => by
    simp only [SearchKey.valid, Bool.and_eq_true] at h
    simp [SearchKey.norm, goNorm ks h.2]
  | .sequenceSet s, h => by simp [SearchKey.norm, normSet_normSet (s := s) (by simpa [SearchKey.valid] using h)]
  | .uid s, h => by simp [SearchKey.norm, normSet_normSet (s := s) (by simpa [SearchKey.valid] using h)]
  | .all, _ | .answered, _ | .bcc _, _ | .before _, _ | .body _, _ | .cc _, _ | .deleted, _ | .draft, _ | .flagged, _ | .from_ _, _
  | .header _ _, _ | .keyword _, _ | .larger _, _ | .new, _ | .old, _ | .on _, _ | .recent, _ | .seen, _ | .sentBefore _, _
  | .sentOn _, _ | .sentSince _, _ | .since _, _ | .smaller _, _ | .subject _, _ | .text _, _ | .to _, _ | .unanswered, _
  | .undeleted, _ | .undraft, _ | .unflagged, _ | .unkeyword _, _ | .unseen, _ | .modSequence _ _, _ => by simp [SearchKey.norm]
where
  goNorm : ∀ l, SearchKey.valid.go l = true → SearchKey.norm.go (SearchKey.norm.go l) = SearchKey.norm.go l
    | [], _ => rfl
    | k :: l, h => by
      simp only [SearchKey.valid.go, Bool.and_eq_true] at h
      simp [SearchKey.norm.go, SearchKey.norm_norm k h.1, goNorm l h.2]

theorem Code.norm_norm {t : Bytes} {c : Code} (h : c.valid t = true) : c.norm.norm = c.norm := by
  cases c with
  | modified s =>
    simp only [Code.valid, Bool.and_eq_true] at h
    simp [Code.norm, normSet_normSet (s := s) h.2]
  | _ => rfl

theorem map_norm_norm {c : Option Code} {t : Bytes} (h : validRespText c t = true) : (c.map Code.norm).map Code.norm = c.map Code.norm := by
  cases c with
  | none => rfl
  | some c =>
    simp only [validRespText, Bool.and_eq_true] at h
    simp [Code.norm_norm h.2]

theorem map_norm_of_all {α : Type} {f : α → α} {p : α → Bool} (hp : ∀ a, p a = true → f (f a) = f a) {l : List α}
    (h : l.all p = true) : (l.map f).map f = l.map f := by
  rw [List.map_map]
  refine List.map_congr_left fun a ha => hp a ?_
  rw [List.all_eq_true] at h
  exact h a ha

theorem CommandBody.norm_norm {b : CommandBody} (h : b.valid = true) : b.norm.norm = b.norm := by
  have crit : ∀ {l : List SearchKey}, isCriteria l = true → (l.map SearchKey.norm).map SearchKey.norm = l.map SearchKey.norm := by
    intro l hl
    refine map_norm_of_all (p := fun k => k.valid) SearchKey.norm_norm ?_
    simp only [isCriteria, Bool.and_eq_true, List.all_eq_true] at hl ⊢
    intro k hk
    simpa using (hl.2 k hk).1
  have par : ∀ {l : List SelectParameter}, l.all SelectParameter.valid = true →
      (l.map SelectParameter.norm).map SelectParameter.norm = l.map SelectParameter.norm :=
    fun hl => map_norm_of_all (fun _ => SelectParameter.norm_norm) hl
  cases b with
  | id l => cases hq : Quirks.idEmptyToNil <;> rcases l with _ | _ | _ <;> simp [CommandBody.norm, hq]
  | select m ps => simp only [CommandBody.valid, Bool.and_eq_true] at h; simp only [CommandBody.norm, par h.2]
  | examine m ps => simp only [CommandBody.valid, Bool.and_eq_true] at h; simp only [CommandBody.norm, par h.2]
  | search => simp only [CommandBody.valid, Bool.and_eq_true] at h; simp only [CommandBody.norm, crit h.2]
  | sort => simp only [CommandBody.valid, Bool.and_eq_true] at h; simp only [CommandBody.norm, crit h.2]
  | thread => simp only [CommandBody.valid, Bool.and_eq_true] at h; simp only [CommandBody.norm, crit h.2]
  | expungeUid s => simp only [CommandBody.valid] at h; simp only [CommandBody.norm, normSet_normSet h]
  | fetch => simp only [CommandBody.valid, Bool.and_eq_true] at h; simp only [CommandBody.norm, normSet_normSet h.1.1]
  | store => simp only [CommandBody.valid, Bool.and_eq_true] at h; simp only [CommandBody.norm, normSet_normSet h.1.1]
  | copy => simp only [CommandBody.valid, Bool.and_eq_true] at h; simp only [CommandBody.norm, normSet_normSet h.1]
  | move => simp only [CommandBody.valid, Bool.and_eq_true] at h; simp only [CommandBody.norm, normSet_normSet h.1]
  | _ => rfl

/-- Normalizing twice is normalizing once. -/
theorem Codec.norm_norm (k : Codec) (m : k.Message) (h : Supported k m) : k.norm (k.norm m) = k.norm m := by
  cases k with
  | greeting =>
    have h1 : validRespText (Greeting.code m) (Greeting.text m) = true := (Spec.RespText.inv_iff _ _).2 h
    simp only [Codec.norm, Greeting.norm, map_norm_norm h1]
  | command =>
    have h1 := (Spec.Command.inv_iff _).2 h
    simp only [Command.valid, Bool.and_eq_true] at h1
    simp only [Codec.norm, Command.norm, CommandBody.norm_norm h1.2]
  | authenticateData => rfl
  | response =>
    have h1 := (Spec.Response.inv_iff _).2 h
    simp only [Bool.and_eq_true] at h1
    have h2 := h1.1
    cases m with
    | continue_ c =>
      cases c with
      | base64 => rfl
      | basic c t =>
        simp only [Response.valid, ContinueReq.valid, Bool.and_eq_true] at h2
        simp only [Codec.norm, Response.norm, ContinueReq.norm, map_norm_norm h2.1]
    | status c =>
      cases c <;> simp only [Response.valid, Status.valid, Bool.and_eq_true] at h2
      · simp only [Codec.norm, Response.norm, Status.norm, map_norm_norm h2]
      · simp only [Codec.norm, Response.norm, Status.norm, map_norm_norm h2.2]
      · simp only [Codec.norm, Response.norm, Status.norm, map_norm_norm h2]
    | data d =>
      simp only [Codec.norm, Response.norm, Response.data.injEq]
      cases d with
      | id_ l => cases hq : Quirks.idEmptyToNil <;> rcases l with _ | _ | _ <;> simp [Data.norm, hq]
      | vanished e s => simp only [Response.valid, Data.valid, Bool.and_eq_true] at h2; simp only [Data.norm, normSet_normSet h2.2]
      | _ => rfl
  | idleDone => rfl

/-! #### The theorems -/

/-- C01, on supported commands. The full statement has `WellFormed` in place of `Supported`; it is false, see `C01_negation`. -/
theorem C01_command_round_trip_partial (c : Command) (h : Supported .command c) (rest : Bytes) :
    Codec.command.decode (dump (Codec.command.encode c) ++ rest) = .ok rest (Codec.command.norm c) :=
  round_trip .command c h rest

/-- The hypothesis is met by a command with a literal. -/
example := @C01_command_round_trip_partial Quirks.default ⟨b!"A1", .login (.atom b!"alice") (.string (.literal ⟨b!"a\r\nb", .sync⟩))⟩
  (@supported_command Quirks.default _ (by with_unfolding_all rfl)) b!"A2 NOOP\r\n"

/-- C02, on supported responses. The full statement has `WellFormed` in place of `Supported`; it is false, see `C02_negation`. -/
theorem C02_response_round_trip_partial (r : Response) (h : Supported .response r) (rest : Bytes) :
    Codec.response.decode (dump (Codec.response.encode r) ++ rest) = .ok rest (Codec.response.norm r) :=
  round_trip .response r h rest

/-- The hypothesis is met by the data of two items. -/
example := @C02_response_round_trip_partial Quirks.default (.data (.fetch 7 [.uid 9, .flags [.flag .seen, .recent]]))
  (@supported_response Quirks.default _ (by with_unfolding_all rfl)) b!"* "

/-- C03, on supported greetings. The full statement has `WellFormed` in place of `Supported`; it is false, see `C03_negation`. -/
theorem C03_greeting_round_trip_partial (g : Greeting) (h : Supported .greeting g) (rest : Bytes) :
    Codec.greeting.decode (dump (Codec.greeting.encode g) ++ rest) = .ok rest (Codec.greeting.norm g) :=
  round_trip .greeting g h rest

/-- The hypothesis is met by a greeting with a code. -/
example := @C03_greeting_round_trip_partial Quirks.default ⟨.ok, some (.capability [.imap4Rev1, .idle]), b!"hello"⟩
  (@supported_greeting Quirks.default _ (by with_unfolding_all rfl)) b!"* "

/-- C04. -/
theorem C04_authenticate_data_round_trip (d : AuthenticateData) (rest : Bytes) :
    Codec.authenticateData.decode (dump (Codec.authenticateData.encode d) ++ rest) = .ok rest d :=
  round_trip .authenticateData d trivial rest

/-- C04. -/
theorem C04_idle_done_round_trip (rest : Bytes) :
    Codec.idleDone.decode (dump (Codec.idleDone.encode ()) ++ rest) = .ok rest () :=
  round_trip .idleDone () trivial rest

/-- C01 to C03 without normalization: with the two quirks off, the decoder returns the message itself exactly if it is supported.
So none of the exclusions in `Supported` can be dropped. -/
theorem C01_round_trip_exact (hq : Quirks.alwaysNormalizeSequenceSets = false) (hi : Quirks.idEmptyToNil = false) (k : Codec)
    (m : k.Message) : (∀ rest, k.decode (dump (k.encode m) ++ rest) = .ok rest m) ↔ Supported k m := by
  constructor
  · intro h
    have := h []
    rw [List.append_nil] at this
    exact ((round_trip_iff k m).1 this).1
  · intro h rest
    have := round_trip k m h rest
    rwa [Codec.norm_off hq hi] at this

/-- The hypotheses are met by a build without the two quirks. -/
example := @C01_round_trip_exact { Quirks.default with alwaysNormalizeSequenceSets := false } rfl rfl

/-- C01 to C03: two different supported messages never have the same encoding, up to normalization. -/
theorem C01_encode_injective (k : Codec) (m m' : k.Message) (h : Supported k m) (h' : Supported k m')
    (he : dump (k.encode m) = dump (k.encode m')) : k.norm m = k.norm m' := by
  have h1 := round_trip k m h []
  have h2 := round_trip k m' h' []
  rw [he, h2] at h1
  simpa using h1.symm

/-- The hypotheses are met by two sets that are normalized to the same set. -/
example := @C01_encode_injective Quirks.default .command ⟨b!"A", .copy [.single (.value 2), .single (.value 1)] .inbox false⟩
  ⟨b!"A", .copy [.range (.value 1) (.value 2)] .inbox false⟩ (@supported_command Quirks.default _ (by with_unfolding_all rfl))
  (@supported_command Quirks.default _ (by with_unfolding_all rfl)) (by decide +kernel)

/-- C01 to C03: no encoding is a proper prefix of another encoding, so that a stream of messages is decoded in one way only. -/
theorem C01_encode_prefix_free (k : Codec) (m m' : k.Message) (h : Supported k m) (h' : Supported k m') (y : Bytes)
    (he : dump (k.encode m) ++ y = dump (k.encode m')) : y = [] := by
  have h1 := round_trip k m h y
  have h2 := round_trip k m' h' []
  rw [List.append_nil, ← he, h1] at h2
  simp only [Outcome.ok.injEq] at h2
  exact h2.1

/-- The hypotheses are met: with the same command twice, and nothing after it. -/
example := @C01_encode_prefix_free Quirks.default .command ⟨b!"A", .noop⟩ ⟨b!"A", .noop⟩
  (@supported_command Quirks.default _ (by with_unfolding_all rfl)) (@supported_command Quirks.default _ (by with_unfolding_all rfl)) [] rfl

/-- The decoder applied again and again, as long as it returns messages: the remainder and the messages. -/
def decodeMany (k : Codec) : Nat → Bytes → Bytes × List k.Message
  | 0, x => (x, [])
  | n + 1, x => match k.decode x with
    | .ok rem m => let (rem', ms) := decodeMany k n rem; (rem', m :: ms)
    | _ => (x, [])

/-- C01 to C04 for streams: a stream of encoded messages is decoded message by message. -/
theorem C01_stream_round_trip (k : Codec) (ms : List k.Message) (h : ∀ m ∈ ms, Supported k m) (rest : Bytes) :
    decodeMany k ms.length ((ms.flatMap fun m => dump (k.encode m)) ++ rest) = (rest, ms.map k.norm) := by
  induction ms with
  | nil => rfl
  | cons m ms ih =>
    simp only [List.length_cons, decodeMany, List.flatMap_cons, List.append_assoc]
    rw [round_trip k m (h m (by simp))]
    simp only [ih fun m hm => h m (by simp [hm]), List.map_cons]

/-- The hypothesis is met by two commands. -/
example := @C01_stream_round_trip Quirks.default .command [⟨b!"A", .noop⟩, ⟨b!"B", .logout⟩]
  (by
    intro m hm
    simp only [List.mem_cons, List.not_mem_nil, or_false] at hm
    rcases hm with rfl | rfl <;> exact @supported_command Quirks.default _ (by with_unfolding_all rfl)) b!"C"

/-! ### C11 -/

/-- C11, for all codecs but ResponseCodec. -/
theorem C11_reencode (k : Codec) (hk : k ≠ .response) (x rem : Bytes) (m : k.Message) (h : k.decode x = .ok rem m) :
    k.decode (dump (k.encode m)) = .ok [] (k.norm m) ∧ k.norm (k.norm m) = k.norm m := by
  have hs : Supported k m := by
    rcases (decoded_valid k x rem m h).2 with hs | ⟨r, rfl, _⟩
    · exact hs
    · exact absurd rfl hk
  have := round_trip k m hs []
  rw [List.append_nil] at this
  exact ⟨this, Codec.norm_norm k m hs⟩

/-- The hypotheses are met by a set that is not normalized. -/
example := @C11_reencode Quirks.default .command (by decide) b!"A copy 02,1 inbox\r\n" []
  ⟨b!"A", .copy [.single (.value 2), .single (.value 1)] .inbox false⟩ (by with_unfolding_all rfl)

/-- C11, for ResponseCodec, for messages that are not a FETCH response with the item MODSEQ. The full statement does not have the
hypothesis `hm`; it is false, see `C11_modSeq` and `C11_negation`. -/
theorem C11_response_reencode_partial (x rem : Bytes) (m : Response) (h : Codec.response.decode x = .ok rem m)
    (hm : ∀ n items q, m = .data (.fetch n items) → MessageDataItem.modSeq q ∉ items) :
    Codec.response.decode (dump (Codec.response.encode m)) = .ok [] (Codec.response.norm m) ∧
      Codec.response.norm (Codec.response.norm m) = Codec.response.norm m := by
  have hs : Supported .response m := by
    rcases (decoded_valid .response x rem m h).2 with hs | ⟨r, _, hr, h1, h2⟩
    · exact hs
    · cases hr
      exfalso
      cases m with
      | data d =>
        cases d with
        | fetch n l =>
          simp only [Response.noModSeq, Data.noModSeq] at h2
          obtain ⟨pre, q, post, rfl, _⟩ := split_modSeq h2
          exact hm n _ q rfl (by simp)
        | _ => simp [Response.noModSeq, Data.noModSeq] at h2
      | _ => simp [Response.noModSeq] at h2
  have := round_trip .response m hs []
  rw [List.append_nil] at this
  exact ⟨this, Codec.norm_norm .response m hs⟩

/-- The hypotheses are met by an expunge response. -/
example := @C11_response_reencode_partial Quirks.default b!"* 007 expunge\r\n" [] (.data (.expunge 7)) (by with_unfolding_all rfl)
  (by intro n items q h; simp at h)

/-- C11, the remaining case: a decoded FETCH response with the item MODSEQ is encoded in a form that the decoder rejects. -/
theorem C11_modSeq (x rem : Bytes) (n : NzU32) (items : List MessageDataItem)
    (h : Codec.response.decode x = .ok rem (.data (.fetch n items))) (q : Nat) (hq : .modSeq q ∈ items) (rest : Bytes) :
    Codec.response.decode (dump (Codec.response.encode (.data (.fetch n items))) ++ rest) = .failed := by
  refine modSeq_failed _ ((Canon.post (p := response)) _ _ _ (ok_of_outcomeResponse (r := response x) h)) ?_ rest
  simp only [Response.noModSeq, Data.noModSeq, List.all_eq_false]
  exact ⟨_, hq, by simp [MessageDataItem.noModSeq]⟩

/-- The hypotheses are met by a response with MODSEQ. -/
example := @C11_modSeq Quirks.default b!"* 1 FETCH (UID 2 MODSEQ (3))\r\n" [] 1 [.uid 2, .modSeq 3] (by with_unfolding_all rfl) 3 (by simp) []

/-! ### Messages that are not decoded back to themselves -/

/-- Well-formed messages that are not supported are not decoded back to themselves. -/
theorem not_round_trip {k : Codec} {m : k.Message} (h : ¬ Supported k m) : k.decode (dump (k.encode m)) ≠ .ok [] m :=
  fun e => h ((round_trip_iff k m).1 e).1

/-- C01 is false as stated: SCRAM-SHA3-512 is an authentication mechanism of imap-types that is not decoded back. -/
theorem C01_negation : ∃ c : Command, WellFormed .command c ∧ Codec.command.norm c = c ∧
    Codec.command.decode (dump (Codec.command.encode c)) ≠ .ok [] c :=
  ⟨⟨b!"A", .authenticate .scramSha3_512 none⟩, ⟨by decide, nofun⟩, rfl, not_round_trip fun h => h.2 rfl⟩

/-- C01 is false for each command that contains a literal of 4 GiB or more. -/
theorem C01_negation_literal (d : Bytes) (hd : 2 ^ 32 ≤ d.length) (h0 : 0 ∉ d) :
    let c : Command := ⟨b!"A", .login (.atom b!"a") (.string (.literal ⟨d, .sync⟩))⟩
    WellFormed .command c ∧ Codec.command.norm c = c ∧ Codec.command.decode (dump (Codec.command.encode c)) ≠ .ok [] c :=
  ⟨⟨(by decide : Spec.Tag.Inv b!"A"), (by decide : Spec.Str1 Spec.AStringChar b!"a"), h0, nofun⟩, rfl,
    not_round_trip fun h => absurd (h.2.2.2 rfl) (by simpa using hd)⟩

/-- The hypotheses are met by a literal of 2^32 bytes. -/
example := @C01_negation_literal Quirks.default (List.replicate (2 ^ 32) 97) (by rw [List.length_replicate])
  (fun h => absurd (List.eq_of_mem_replicate h) (by decide))

/-- C01 is false for a search key that is nested ten levels deep. -/
theorem C01_negation_depth :
    let c : Command := ⟨b!"A", .search none [.not (.not (.not (.not (.not (.not (.not (.not (.not .all))))))))] false⟩
    WellFormed .command c ∧ Codec.command.norm c = c ∧ Codec.command.decode (dump (Codec.command.encode c)) ≠ .ok [] c := by
  refine ⟨⟨by decide, by simp [Spec.Opt], by simp, ?_⟩, rfl, not_round_trip fun h => ?_⟩
  · simp [Spec.SearchKey.Inv]
  · have := (h.2.2.2 _ (List.mem_singleton.2 rfl)).2 rfl
    revert this
    decide

/-- C01 is false for quoted strings of the type `QuotedUtf8` without a special character: these are decoded as `Quoted`.
The type exists only with the feature `ext_utf8`. -/
theorem C01_negation_utf8 (hf : Quirks.extUtf8 = true) :
    let c : Command := ⟨b!"A", .login (.atom b!"a") (.string (.quotedUtf8 b!"abc"))⟩
    WellFormed .command c ∧ Codec.command.norm c = c ∧ Codec.command.decode (dump (Codec.command.encode c)) ≠ .ok [] c := by
  refine ⟨⟨by decide, (by decide : Spec.Str1 Spec.AStringChar b!"a"), hf, (by decide : isUtf8 b!"abc" = true), nofun, nofun⟩, rfl,
    not_round_trip fun h => ?_⟩
  obtain ⟨b, hb, hn⟩ := h.2.2.2.2.1 rfl
  revert b
  decide

/-- The hypothesis is met by the default features. -/
example := @C01_negation_utf8 Quirks.default rfl

/-- C02 is false as stated: the item MODSEQ, which exists with the feature `ext_condstore_qresync`, is encoded in a form that the decoder
rejects. For all builds, see `C02_negation_recent`. -/
theorem C02_negation (hf : Quirks.extCondstoreQresync = true) : ∃ r : Response, WellFormed .response r ∧ Codec.response.norm r = r ∧
    ∀ rest, Codec.response.decode (dump (Codec.response.encode r) ++ rest) = .failed :=
  ⟨.data (.fetch 1 [.modSeq 5]), ⟨by simp [Spec.NZ32], by simp, by simp [Spec.MessageDataItem.Inv, Spec.NZ64, hf]⟩, rfl,
    modSeq_failed _ (by simp [Response.valid, Data.valid, MessageDataItem.valid, hf]; decide) rfl⟩

/-- The hypothesis is met by the default features. -/
example := @C02_negation Quirks.default rfl

/-- C02 is false for the capability NAMESPACE, which is decoded as an unknown capability. The
variant exists only with the feature `ext_namespace`. -/
theorem C02_negation_namespace (hf : Quirks.extNamespace = true) :
    let r : Response := .data (.capability [.imap4Rev1, .namespace_])
    WellFormed .response r ∧ Codec.response.norm r = r ∧ Codec.response.decode (dump (Codec.response.encode r)) ≠ .ok [] r := by
  refine ⟨⟨by simp, by simp [Spec.Capability.Inv, hf]⟩, rfl, not_round_trip fun h => ?_⟩
  exact (h.2 .namespace_ (by simp)).2 rfl

/-- The hypothesis is met by the default features. -/
example := @C02_negation_namespace Quirks.default rfl

/-- C02 is false for the flag `\RECENT` as an extension flag, which is decoded as `FlagFetch::Recent`. -/
theorem C02_negation_recent :
    let r : Response := .data (.fetch 1 [.flags [.flag (.extension b!"RECENT")]])
    WellFormed .response r ∧ Codec.response.norm r = r ∧ Codec.response.decode (dump (Codec.response.encode r)) ≠ .ok [] r := by
  refine ⟨⟨by simp [Spec.NZ32], by simp, ?_⟩, rfl, not_round_trip fun h => ?_⟩
  · simp only [List.mem_singleton, forall_eq]
    refine fun f hf => ?_
    simp only [List.mem_singleton] at hf
    subst hf
    exact ⟨⟨by decide, by unfold Spec.NotOneOf; decide⟩, fun h => nomatch h⟩
  · have := (h.2.2 _ (List.mem_singleton.2 rfl) _ (List.mem_singleton.2 rfl)).2 rfl _ rfl
    revert this
    unfold Spec.NotOneOf
    decide

/-- C03 is false as stated: a text may start with `[`, and is then decoded as a code. -/
theorem C03_negation : ∃ g : Greeting, WellFormed .greeting g ∧ Codec.greeting.norm g = g ∧
    Codec.greeting.decode (dump (Codec.greeting.encode g)) ≠ .ok [] g :=
  ⟨⟨.ok, none, b!"[ALERT] hi"⟩, ⟨by decide, by simp [Spec.Opt], fun h => nomatch h⟩, rfl,
    not_round_trip fun h => h.2.2 rfl rfl rfl⟩

/-- C03 is false for the code REFERRAL, which is decoded as an unknown code. The variant exists only
with one of the features `ext_login_referrals` and `ext_mailbox_referrals`. -/
theorem C03_negation_referral (hf : Quirks.extLoginReferrals = true ∨ Quirks.extMailboxReferrals = true) :
    let g : Greeting := ⟨.bye, some (.referral b!"imap://b"), b!"bye"⟩
    WellFormed .greeting g ∧ Codec.greeting.norm g = g ∧ Codec.greeting.decode (dump (Codec.greeting.encode g)) ≠ .ok [] g := by
  refine ⟨⟨by decide, by simp [Spec.Opt, Spec.Code.Inv, hf]; decide, fun h => nomatch h⟩, rfl, not_round_trip fun h => ?_⟩
  exact (h.2.1 (.referral b!"imap://b") rfl).2.1 rfl

/-- The hypothesis is met by the default features. -/
example := @C03_negation_referral Quirks.default (.inl rfl)

end Imap

namespace Imap

/-! ### The hypotheses are met -/

section
local instance : Quirks := Quirks.default

/-- C11 is false as stated for ResponseCodec: this response is decoded, and its encoding is rejected. -/
theorem C11_negation : ∃ x m, Codec.response.decode x = .ok [] m ∧
    ∀ rest, Codec.response.decode (dump (Codec.response.encode m) ++ rest) = .failed :=
  ⟨b!"* 1 FETCH (MODSEQ (5))\r\n", .data (.fetch 1 [.modSeq 5]), by with_unfolding_all rfl,
    C11_modSeq b!"* 1 FETCH (MODSEQ (5))\r\n" [] _ _ (by with_unfolding_all rfl) 5 (by simp)⟩

/-- A supported command with a literal, a quoted string and nested search keys (C01). -/
example : Supported .command ⟨b!"A1", .search none [.or (.not .seen) (.and [.subject (.string (.literal ⟨b!"x{1}", .nonSync⟩)),
    .from_ (.string (.quoted b!"a\\b")), .sequenceSet [.single (.value 3), .range (.value 1) .asterisk]])] true⟩ :=
  (Spec.Command.inv_iff _).1 (by decide)

/-- What the decoder returns for it: the sequence set is normalized, as the quirk is on. -/
example : Codec.command.norm ⟨b!"A1", .search none [.sequenceSet [.single (.value 3), .range (.value 1) .asterisk]] true⟩ =
    (⟨b!"A1", .search none [.sequenceSet [.range (.value 1) .asterisk]] true⟩ : Command) := by with_unfolding_all rfl

/-- A supported response (C02). -/
example : Supported .response (.data (.fetch 7 [.flags [.flag .seen, .recent], .uid 12,
    .bodyExt none (some 3) (some (.literal ⟨b!"a\r\nb", .sync⟩))])) :=
  (Spec.Response.inv_iff (.data (.fetch 7 [.flags [.flag .seen, .recent], .uid 12,
    .bodyExt none (some 3) (some (.literal ⟨b!"a\r\nb", .sync⟩))]))).1 (by decide)

/-- A supported greeting (C03). -/
example : Supported .greeting ⟨.preAuth, some (.capability [.imap4Rev1, .auth .plain, .other b!"X-FOO"]), b!"[welcome]"⟩ :=
  (Spec.RespText.inv_iff _ _).1 (by decide)

/-- What is decoded instead of the messages that are not supported. -/
example : Codec.command.decode (dump (Codec.command.encode ⟨b!"A", .authenticate .scramSha3_512 none⟩)) =
    .ok [] ⟨b!"A", .authenticate (.other b!"SCRAM-SHA3-512") none⟩ := by with_unfolding_all rfl
example : Codec.command.decode (dump (Codec.command.encode ⟨b!"A", .login (.atom b!"a") (.string (.quotedUtf8 b!"abc"))⟩)) =
    .ok [] ⟨b!"A", .login (.atom b!"a") (.string (.quoted b!"abc"))⟩ := by with_unfolding_all rfl
example : Codec.command.decode (dump (Codec.command.encode
    ⟨b!"A", .search none [.not (.not (.not (.not (.not (.not (.not (.not (.not .all))))))))] false⟩)) = .failed := by with_unfolding_all rfl
example : Codec.response.decode (dump (Codec.response.encode (.data (.capability [.imap4Rev1, .namespace_])))) =
    .ok [] (.data (.capability [.imap4Rev1, .other b!"NAMESPACE"])) := by with_unfolding_all rfl
example : Codec.response.decode (dump (Codec.response.encode (.data (.fetch 1 [.flags [.flag (.extension b!"RECENT")]])))) =
    .ok [] (.data (.fetch 1 [.flags [.recent]])) := by with_unfolding_all rfl
example : Codec.greeting.decode (dump (Codec.greeting.encode ⟨.ok, none, b!"[ALERT] hi"⟩)) =
    .ok [] ⟨.ok, some .alert, b!"hi"⟩ := by with_unfolding_all rfl
example : Codec.greeting.decode (dump (Codec.greeting.encode ⟨.bye, some (.referral b!"imap://b"), b!"bye"⟩)) =
    .ok [] ⟨.bye, some (.other b!"REFERRAL imap://b"), b!"bye"⟩ := by with_unfolding_all rfl

end

end Imap
