import Verif.SessionLemmas
/-
Lemmas for C50: the plan of a client that follows the protocol fits the server.
-/
set_option maxRecDepth 10000

namespace Imap.Session

open Frag

variable [Quirks] {lim : Limits} {log : List LogEntry}

omit [Quirks] in
theorem dump_length_takeWhile (p : Fragment → Bool) (f : Fragment) (fs : List Fragment) (hp : p f = true) :
    (dump ((f :: fs).takeWhile p)).length = f.data.length + (dump (fs.takeWhile p)).length := by
  simp [List.takeWhile_cons, hp, dump]

omit [Quirks] in
theorem dump_snoc (fs : List Fragment) (f : Fragment) : dump (fs ++ [f]) = dump fs ++ f.data := by simp [dump]

/-- The rest of a command fits the server. -/
theorem good_fragments (c : Command) (hs : Supported .command c) {ℓ : List LogEntry} {accepted rejected : List Act} {fs : List Fragment}
    (hp : Pieces (fun a => isUnbroken a = true) (fun d => d.length < 2 ^ 32) fs) {l : Bytes} (hl : isUnbroken l = true)
    (hna : annOf (scan .other (l ++ b!"\r")) = none) (pre : List Fragment)
    (e : Codec.command.encode c = pre ++ (fs ++ [Fragment.line (l ++ b!"\r\n")]))
    (hm : (dump pre).length + (dump ((fs ++ [Fragment.line (l ++ b!"\r\n")]).takeWhile fun f => !tooLong lim f)).length ≤ lim.message)
    (hacc : (fs ++ [Fragment.line (l ++ b!"\r\n")]).any (tooLong lim) = false →
      Good lim log (Server.complete ⟨after lim (dump (Codec.command.encode c)), .command, ℓ⟩).1
        (Server.complete ⟨after lim (dump (Codec.command.encode c)), .command, ℓ⟩).2 accepted)
    (hrej : (fs ++ [Fragment.line (l ++ b!"\r\n")]).any (tooLong lim) = true →
      Good lim log ⟨.init (some lim.message), .command, ℓ ++ [.rejected c.tag]⟩ [] rejected) :
    Good lim log ⟨within lim (dump pre), .command, ℓ⟩ [] (planFragments lim c.tag accepted rejected (fs ++ [Fragment.line (l ++ b!"\r\n")])) := by
  induction hp generalizing pre with
  | nil =>
    simp only [List.nil_append] at *
    have hm' : (dump pre).length + (l ++ b!"\r\n").length ≤ lim.message := by
      rw [dump_length_takeWhile _ _ _ (by rfl)] at hm
      simpa [Fragment.data, dump] using hm
    have hw := within_last hl hna hm'
    simp only [planFragments, Good]
    have hr : Reacts lim ((⟨within lim (dump pre), .command, ℓ⟩ : Server).enqueue (l ++ b!"\r\n"))
        (Server.complete ⟨after lim (dump (Codec.command.encode c)), .command, ℓ⟩).1
        (Server.complete ⟨after lim (dump (Codec.command.encode c)), .command, ℓ⟩).2 := by
      refine ⟨_, _, hw, ?_⟩
      rw [e, dump_snoc]
      rfl
    rw [good_reacts _ hr]
    exact hacc rfl
  | @cons a d m fs ha hd hp ih =>
    simp only [List.cons_append] at *
    have hm1 : (dump pre).length + ((a ++ announce d.length m).length + (dump ((.literal d m :: (fs ++ [Fragment.line (l ++ b!"\r\n")])).takeWhile fun f => !tooLong lim f)).length) ≤ lim.message := by
      rw [dump_length_takeWhile _ _ _ (by rfl)] at hm
      exact hm
    have hw := within_announce (lim := lim) (buf := dump pre) (m := m) ha hd (by omega)
    have e1 : Codec.command.encode c = (pre ++ [.line (a ++ announce d.length m)]) ++ .literal d m :: (fs ++ [Fragment.line (l ++ b!"\r\n")]) := by
      rw [e]; simp
    have e2 : Codec.command.encode c = (pre ++ [.line (a ++ announce d.length m), .literal d m]) ++ (fs ++ [Fragment.line (l ++ b!"\r\n")]) := by
      rw [e]; simp
    have hb : dump pre ++ (a ++ announce d.length m) = dump (pre ++ [.line (a ++ announce d.length m)]) := by rw [dump_snoc]; rfl
    have hb2 : dump (pre ++ [.line (a ++ announce d.length m)]) ++ d = dump (pre ++ [.line (a ++ announce d.length m), .literal d m]) := by
      simp [dump, Fragment.data]
    rw [hb] at hw
    have hlen : (dump (pre ++ [.line (a ++ announce d.length m)])).length = (dump pre).length + (a ++ announce d.length m).length := by
      rw [← hb, List.length_append]
    -- the literal is accepted
    have next : tooLong lim (.literal d m) = false →
        Good lim log ((⟨{ within lim (dump (pre ++ [.line (a ++ announce d.length m)])) with
            parser := some (.literal (.new (dump (pre ++ [.line (a ++ announce d.length m)])).length d.length)) }, .command, ℓ⟩ : Server).enqueue d) []
          (planFragments lim c.tag accepted rejected (fs ++ [Fragment.line (l ++ b!"\r\n")])) := by
      intro ht
      rw [dump_length_takeWhile _ _ _ (by simp [ht])] at hm1
      simp only [Fragment.data] at hm1
      have hw2 := within_literal (lim := lim) (buf := dump (pre ++ [.line (a ++ announce d.length m)])) (d := d) (by omega)
      have hr : Reacts lim ((⟨{ within lim (dump (pre ++ [.line (a ++ announce d.length m)])) with
            parser := some (.literal (.new (dump (pre ++ [.line (a ++ announce d.length m)])).length d.length)) }, .command, ℓ⟩ : Server).enqueue d)
          ⟨within lim (dump (pre ++ [.line (a ++ announce d.length m), .literal d m])), .command, ℓ⟩ [] := by
        refine ⟨_, _, hw2, ?_⟩
        rw [hb2]
        rfl
      rw [good_reacts _ hr]
      refine ih _ e2 ?_ ?_ ?_
      · rw [← hb2, List.length_append]
        omega
      · intro h
        exact hacc (by simp only [List.any_cons, ht, h]; rfl)
      · intro h
        exact hrej (by simp only [List.any_cons, ht, h]; rfl)
    cases m with
    | nonSync =>
      simp only [planFragments]
      rw [Good]
      have hr : Reacts lim ((⟨within lim (dump pre), .command, ℓ⟩ : Server).enqueue (a ++ announce d.length .nonSync))
          ⟨{ within lim (dump (pre ++ [.line (a ++ announce d.length .nonSync)])) with
            parser := some (.literal (.new (dump (pre ++ [.line (a ++ announce d.length .nonSync)])).length d.length)) }, .command, ℓ⟩ [] :=
        ⟨_, _, hw, rfl⟩
      rw [good_reacts _ hr]
      exact next rfl
    | sync =>
      simp only [planFragments]
      rw [Good]
      by_cases hle : d.length ≤ lim.literal
      · have hr : Reacts lim ((⟨within lim (dump pre), .command, ℓ⟩ : Server).enqueue (a ++ announce d.length .sync))
            ⟨{ within lim (dump (pre ++ [.line (a ++ announce d.length .sync)])) with
              parser := some (.literal (.new (dump (pre ++ [.line (a ++ announce d.length .sync)])).length d.length)) }, .command, ℓ⟩
              [.continue_] := by
          refine ⟨_, _, hw, ?_⟩
          simp only [Server.react, if_pos hle]
          rfl
        rw [good_reacts _ hr, if_pos hle]
        have hn := next (by simp only [tooLong, decide_eq_false_iff_not]; omega)
        by_cases hd0 : d = []
        · subst hd0
          have hw2 := within_literal (lim := lim) (buf := dump (pre ++ [.line (a ++ announce ([] : Bytes).length .sync)])) (d := [])
            (by simp only [List.length_nil] at *; omega)
          rw [enqueue_nil] at hn
          have hr2 : Reacts lim (⟨{ within lim (dump (pre ++ [.line (a ++ announce ([] : Bytes).length .sync)])) with
              parser := some (.literal (.new (dump (pre ++ [.line (a ++ announce ([] : Bytes).length .sync)])).length ([] : Bytes).length)) }, .command, ℓ⟩ : Server)
              ⟨within lim (dump (pre ++ [.line (a ++ announce ([] : Bytes).length .sync)])), .command, ℓ⟩ [] := by
            have hz : ∀ f : Frag.State, f.enqueue [] = f := fun f => by simp [State.enqueue]
            rw [hz, List.append_nil] at hw2
            exact ⟨_, _, hw2, rfl⟩
          refine ⟨[], _, .step (rs := []) hr2 (.done (within_none _)), rfl, ?_⟩
          rw [Good, enqueue_nil]
          exact (good_reacts _ hr2).1 hn
        · refine ⟨[], _, .done ?_, rfl, ?_⟩
          · have : 0 < d.length := List.length_pos_iff.2 hd0
            simp [State.progress, State.progressWith, within, Parser.parse, LiteralParser.parse, LiteralParser.new, State.init, this]
          · exact hn
      · have htl : tooLong lim (.literal d .sync) = true := by simp only [tooLong, decide_eq_true_eq]; omega
        have htag : ({ within lim (dump (pre ++ [.line (a ++ announce d.length .sync)])) with
              parser := some (.literal (.new (dump (pre ++ [.line (a ++ announce d.length .sync)])).length d.length)) } : Frag.State).decodeTag = some c.tag :=
          C18_literal _ _ _ _ (C42_literal c hs _ _ d .sync e1)
        have hr : Reacts lim ((⟨within lim (dump pre), .command, ℓ⟩ : Server).enqueue (a ++ announce d.length .sync))
            ⟨.init (some lim.message), .command, ℓ ++ [.rejected c.tag]⟩ [.bad c.tag] := by
          refine ⟨_, _, hw, ?_⟩
          simp only [Server.react, if_neg hle, htag]
          rfl
        rw [good_reacts _ hr, if_neg hle]
        refine ⟨[], _, .done init_none, rfl, ?_⟩
        exact hrej (by simp only [List.any_cons, htl]; rfl)

theorem decode_after (k : Codec) (m : k.Message) (h : Supported k m) : (after lim (dump (k.encode m))).decodeMessage k.decoder = .ok (k.norm m) := by
  have hd := round_trip k m h []
  rw [List.append_nil] at hd
  simp only [State.decodeMessage, after, State.init, Codec.decoder, hd]
  rfl

/-- A message of one line fits the server. -/
theorem good_line {x : AnyMessage} (ht : Transmissible x) (h1 : x.encode.length = 1) (hm : (dump x.encode).length ≤ lim.message) (ph : Phase)
    (ℓ : List LogEntry) {as : List Act}
    (hg : Good lim log (Server.complete ⟨after lim (dump x.encode), ph, ℓ⟩).1 (Server.complete ⟨after lim (dump x.encode), ph, ℓ⟩).2 as) :
    Good lim log ⟨.init (some lim.message), ph, ℓ⟩ [] (.bytes (dump x.encode) :: as) := by
  obtain ⟨pieces, l, e, hp, hl, hna⟩ := transmissible_pieces ht
  cases hp with
  | cons => rw [e] at h1; simp at h1
  | nil =>
    rw [List.nil_append] at e
    have ed : dump x.encode = l ++ b!"\r\n" := by rw [e]; simp [dump, Fragment.data]
    rw [ed] at hm hg ⊢
    rw [Good]
    have hw := within_last (lim := lim) (buf := []) hl hna (by simpa using hm)
    have hr : Reacts lim ((⟨.init (some lim.message), ph, ℓ⟩ : Server).enqueue (l ++ b!"\r\n"))
        (Server.complete ⟨after lim (l ++ b!"\r\n"), ph, ℓ⟩).1 (Server.complete ⟨after lim (l ++ b!"\r\n"), ph, ℓ⟩).2 :=
      ⟨_, _, hw, rfl⟩
    rw [good_reacts _ hr]
    exact hg

theorem transmissible_answer (d : AuthenticateData) : Transmissible ⟨.authenticateData, d⟩ :=
  ⟨trivial, fun e m h => supported_fits (k := .authenticateData) (m := d) trivial e m h, fun t h => by simp [Codec.trailingText] at h⟩

theorem transmissible_done : Transmissible ⟨.idleDone, ()⟩ :=
  ⟨trivial, fun e m h => supported_fits (k := .idleDone) (m := ()) trivial e m h, fun t h => by simp [Codec.trailingText] at h⟩

theorem norm_plain {b : CommandBody} (h1 : ∀ m ir, b ≠ .authenticate m ir) (h2 : b ≠ .idle) :
    (∀ m ir, b.norm ≠ .authenticate m ir) ∧ b.norm ≠ .idle := by
  unfold CommandBody.norm
  split <;> first | (split <;> simp) | (exact ⟨h1, h2⟩) | simp

theorem complete_authenticate {c : Command} (h : Supported .command c) {mech ir} (hb : c.body = .authenticate mech ir) (ℓ : List LogEntry) :
    Server.complete ⟨after lim (dump (Codec.command.encode c)), .command, ℓ⟩ =
      (⟨after lim (dump (Codec.command.encode c)), .authenticate c.tag, ℓ ++ [.message ⟨.command, c.norm⟩]⟩, [.continue_]) := by
  simp only [Server.complete, decode_after .command c h]
  rw [show Command.body (Codec.command.norm c) = .authenticate mech ir by show c.body.norm = _; rw [hb]; rfl]
  rfl

theorem complete_idle {c : Command} (h : Supported .command c) (hb : c.body = .idle) (ℓ : List LogEntry) :
    Server.complete ⟨after lim (dump (Codec.command.encode c)), .command, ℓ⟩ =
      (⟨after lim (dump (Codec.command.encode c)), .idle, ℓ ++ [.message ⟨.command, c.norm⟩]⟩, [.continue_]) := by
  simp only [Server.complete, decode_after .command c h]
  rw [show Command.body (Codec.command.norm c) = .idle by show c.body.norm = _; rw [hb]; rfl]
  rfl

theorem complete_plain {c : Command} (h : Supported .command c) (h1 : ∀ m ir, c.body ≠ .authenticate m ir) (h2 : c.body ≠ .idle)
    (ℓ : List LogEntry) :
    Server.complete ⟨after lim (dump (Codec.command.encode c)), .command, ℓ⟩ =
      (⟨after lim (dump (Codec.command.encode c)), .command, ℓ ++ [.message ⟨.command, c.norm⟩]⟩, []) := by
  obtain ⟨h3, h4⟩ := norm_plain h1 h2
  simp only [Server.complete, decode_after .command c h]
  split
  · next hb => exact absurd hb (h3 _ _)
  · next hb => exact absurd hb h4
  · rfl

theorem complete_answer (d : AuthenticateData) (tag : Bytes) (ℓ : List LogEntry) :
    Server.complete ⟨after lim (dump (Codec.authenticateData.encode d)), .authenticate tag, ℓ⟩ =
      (⟨after lim (dump (Codec.authenticateData.encode d)), .command, ℓ ++ [.message ⟨.authenticateData, d⟩]⟩, [.ok tag]) := by
  simp only [Server.complete, decode_after .authenticateData d trivial]
  rfl

theorem complete_done (ℓ : List LogEntry) :
    Server.complete ⟨after lim (dump (Codec.idleDone.encode ())), .idle, ℓ⟩ =
      (⟨after lim (dump (Codec.idleDone.encode ())), .command, ℓ ++ [.message ⟨.idleDone, ()⟩]⟩, []) := by
  simp only [Server.complete, decode_after .idleDone () trivial]

theorem one_answer (d : AuthenticateData) : (AnyMessage.encode ⟨.authenticateData, d⟩).length = 1 := by
  cases d <;> simp [AnyMessage.encode, Codec.encode, Codec.enc, AuthenticateData.enc, fragments, Ctx.step, Ctx.intoItems]

theorem good_turns (ts : List Turn) (h : ∀ t ∈ ts, t.Possible lim) (ℓ : List LogEntry) :
    Good lim (ℓ ++ ts.flatMap (Turn.entries lim)) ⟨.init (some lim.message), .command, ℓ⟩ [] (planTurns lim ts) := by
  induction ts generalizing ℓ with
  | nil => exact ⟨rfl, _, .done init_none, by simp⟩
  | cons t ts ih =>
    have hp := h t List.mem_cons_self
    replace ih := ih fun t' ht' => h t' (List.mem_cons_of_mem _ ht')
    have htr : Transmissible ⟨.command, t.command⟩ := ⟨hp.unbroken, fun e m h => supported_fits hp.supported e m h, fun t h => by simp [Codec.trailingText] at h⟩
    obtain ⟨pieces, l, e, hpc, hl, hna⟩ := transmissible_pieces htr
    replace e : Codec.command.encode t.command = pieces ++ [.line (l ++ b!"\r\n")] := e
    have hsim : Sim ⟨within lim (dump []), .command, ℓ⟩ ⟨.init (some lim.message), .command, ℓ⟩ := ⟨rfl, rfl, fun _ => rfl⟩
    refine hsim.good ?_
    rw [planTurns]
    conv => arg 5; rw [e]
    refine good_fragments t.command hp.supported hpc hl hna [] (by rw [e]; rfl) ?_ ?_ ?_
    · have := hp.fits
      rw [Turn.sent, e] at this
      simpa [dump] using this
    · intro hr
      have hr' : t.rejected lim = false := by rw [Turn.rejected, e]; exact hr
      simp only [List.flatMap_cons, Turn.entries, hr', Bool.false_eq_true, if_false, planAfter]
      split
      · next mech ir hb =>
        rw [complete_authenticate hp.supported hb]
        simp only [hb]
        refine (sim_after _ _ _).good ⟨[], _, .done init_none, rfl, ?_⟩
        refine good_line (x := ⟨.authenticateData, t.answer⟩) (transmissible_answer _) (one_answer _) (hp.answer _ _ hb) _ _ ?_
        simp only [AnyMessage.encode, complete_answer]
        refine (sim_after _ _ _).good ⟨[], _, .done init_none, rfl, ?_⟩
        have := ih (ℓ ++ [.message ⟨.command, t.command.norm⟩] ++ [.message ⟨.authenticateData, t.answer⟩])
        simpa [List.append_assoc] using this
      · next hb =>
        rw [complete_idle hp.supported hb]
        simp only [hb]
        refine (sim_after _ _ _).good ⟨[], _, .done init_none, rfl, ?_⟩
        refine good_line (x := ⟨.idleDone, ()⟩) transmissible_done (by rfl) (hp.done hb) _ _ ?_
        simp only [AnyMessage.encode, complete_done]
        refine (sim_after _ _ _).good ?_
        have := ih (ℓ ++ [.message ⟨.command, t.command.norm⟩] ++ [.message ⟨.idleDone, ()⟩])
        simpa [List.append_assoc] using this
      · next h1 h2 =>
        rw [complete_plain hp.supported h1 h2]
        refine (sim_after _ _ _).good ?_
        have := ih (ℓ ++ [.message ⟨.command, t.command.norm⟩])
        simpa [List.append_assoc] using this
    · intro hr
      have hr' : t.rejected lim = true := by rw [Turn.rejected, e]; exact hr
      have := ih (ℓ ++ [.rejected t.command.tag])
      simpa [Turn.entries, hr'] using this

end Imap.Session
