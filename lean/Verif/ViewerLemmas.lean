import Verif.ViewerSpec
import Verif.FragEnc
import Verif.SessionLemmas
import Verif.Props.RoundTrip
/-
Lemmas for C53.
-/
set_option maxRecDepth 10000

namespace Imap

open Frag

/-! ### There is only one way to cut a stream into messages -/

theorem isLine_unique {l l' r r' : Bytes} (h : IsLine l) (h' : IsLine l') (e : l ++ r = l' ++ r') : l = l' ∧ r = r' := by
  obtain ⟨b, rfl, hb⟩ := h
  obtain ⟨b', rfl, hb'⟩ := h'
  have key : ∀ (b b' : Bytes), (10 : UInt8) ∉ b → (10 : UInt8) ∉ b' → b ++ 10 :: r = b' ++ 10 :: r' → b = b' ∧ r = r' := by
    intro b
    induction b with
    | nil =>
      intro b' _ hb' e
      cases b' with
      | nil => simpa using e
      | cons c b' =>
        simp only [List.nil_append, List.cons_append, List.cons.injEq] at e
        exact absurd (by rw [e.1]; simp) hb'
    | cons c b ih =>
      intro b' hb hb' e
      cases b' with
      | nil =>
        simp only [List.nil_append, List.cons_append, List.cons.injEq] at e
        exact absurd (by rw [e.1]; simp) hb
      | cons c' b' =>
        simp only [List.cons_append, List.cons.injEq] at e
        obtain ⟨h1, h2⟩ := ih b' (fun h => hb (by simp [h])) (fun h => hb' (by simp [h])) e.2
        exact ⟨by rw [e.1, h1], h2⟩
  have := key b b' hb hb' (by simpa using e)
  exact ⟨by rw [this.1], this.2⟩

theorem announces_unique {l : Bytes} {a a' : Ann} (hl : IsLine l) (h : Frag.Announces l a) (h' : Frag.Announces l a') : a = a' := by
  obtain ⟨b, rfl, _⟩ := hl
  rw [announces_body] at h h'
  exact Option.some.inj (h.symm.trans h')

theorem message_unique {n n' : Nat} {m m' r r' : Bytes} {is is' : List Info} (h : Message n m is) (h' : Message n' m' is')
    (e : m ++ r = m' ++ r') : m = m' ∧ r = r' := by
  induction h generalizing n' m' is' with
  | last hl hna _ =>
    cases h' with
    | last hl' _ _ => exact isLine_unique hl hl' e
    | more hl' ha' _ _ _ =>
      obtain ⟨rfl, _⟩ := isLine_unique hl hl' (by simpa using e)
      exact absurd ha' (hna _)
  | @more start l a ending lit rest infos hl ha _ hlen _ ih =>
    cases h' with
    | last hl' hna' _ =>
      obtain ⟨rfl, _⟩ := isLine_unique hl' hl (by simpa using e.symm)
      exact absurd ha (hna' _)
    | @more _ l' a' _ lit' rest' _ hl' ha' _ hlen' hm' =>
      rw [List.append_assoc, List.append_assoc, List.append_assoc, List.append_assoc] at e
      obtain ⟨rfl, e2⟩ := isLine_unique hl hl' e
      obtain rfl := announces_unique hl ha ha'
      obtain ⟨rfl, e3⟩ := List.append_inj e2 (by rw [hlen, hlen'])
      obtain ⟨rfl, rfl⟩ := ih hm' e3
      exact ⟨rfl, rfl⟩

theorem message_not_unfinished {n n' : Nat} {m u r : Bytes} {is is' : List Info} (h : Message n m is) (h' : Unfinished n' u is')
    (e : m ++ r = u) : False := by
  have noLF : ∀ {l x : Bytes}, IsLine l → (10 : UInt8) ∉ l ++ x → False := by
    rintro l x ⟨b, rfl, _⟩ hn
    exact hn (by simp)
  induction h generalizing n' u is' with
  | last hl hna _ =>
    cases h' with
    | inLine hn => rw [← e] at hn; exact noLF hl hn
    | inLiteral hl' ha' _ _ =>
      obtain ⟨rfl, _⟩ := isLine_unique hl hl' e
      exact hna _ ha'
    | more hl' ha' _ _ _ =>
      obtain ⟨rfl, _⟩ := isLine_unique hl hl' (by simpa using e)
      exact hna _ ha'
  | @more start l a ending lit rest infos hl ha _ hlen hm ih =>
    have hne : ∀ {n m is}, Message n m is → m.length ≠ 0 := by
      intro n m is h
      cases h with
      | last hl _ _ => obtain ⟨b, rfl, _⟩ := hl; simp
      | more hl _ _ _ _ => obtain ⟨b, rfl, _⟩ := hl; simp
    rw [List.append_assoc, List.append_assoc] at e
    cases h' with
    | inLine hn => rw [← e] at hn; exact noLF hl hn
    | inLiteral hl' ha' _ hlen' =>
      obtain ⟨rfl, e2⟩ := isLine_unique hl hl' e
      obtain rfl := announces_unique hl ha ha'
      rw [← e2] at hlen'
      have := hne hm
      simp only [List.length_append] at hlen'
      omega
    | more hl' ha' _ hlen' hu =>
      rw [List.append_assoc] at e
      obtain ⟨rfl, e2⟩ := isLine_unique hl hl' e
      obtain rfl := announces_unique hl ha ha'
      obtain ⟨rfl, e3⟩ := List.append_inj e2 (by rw [hlen, hlen'])
      exact ih hu e3

/-- Complete messages at the start of a stream are the first ones of each cut of the stream into messages. -/
theorem split_prefix {ms ms' : List Bytes} {r u : Bytes} (h : ∀ m ∈ ms, IsMessage m) (h' : ∀ m ∈ ms', IsMessage m)
    (hu : IsUnfinished u) (e : ms.flatten ++ r = ms'.flatten ++ u) : ms <+: ms' := by
  induction ms generalizing ms' with
  | nil => exact List.nil_prefix
  | cons m ms ih =>
    obtain ⟨is, hm⟩ := h m (by simp)
    cases ms' with
    | nil =>
      obtain ⟨is', hu⟩ := hu
      exact (message_not_unfinished hm hu (r := ms.flatten ++ r) (by simpa using e)).elim
    | cons m' ms' =>
      obtain ⟨is', hm'⟩ := h' m' (by simp)
      obtain ⟨rfl, e2⟩ := message_unique hm hm' (r := ms.flatten ++ r) (r' := ms'.flatten ++ u) (by simpa using e)
      exact (List.prefix_cons_inj _).2 (ih (fun m hm => h m (by simp [hm])) (fun m hm => h' m (by simp [hm])) e2)

/-! ### Encoded messages -/

theorem isMessage_encode [Quirks] {x : AnyMessage} (h : Transmissible x) : IsMessage (dump x.encode) := by
  obtain ⟨pieces, l, he, hp, hl, hna⟩ := transmissible_pieces h
  have key : ∀ n, ∃ is, Message n (dump (pieces ++ [.line (l ++ b!"\r\n")])) is := by
    clear he
    induction hp with
    | nil =>
      intro n
      have e0 : dump ([] ++ [Fragment.line (l ++ b!"\r\n")]) = (l ++ b!"\r") ++ b!"\n" := by simp [dump, Fragment.data]
      rw [e0]
      refine ⟨_, .last ⟨_, rfl, by simp [unbroken_not_mem hl]⟩ (fun a ha => ?_) (endsWith_body _)⟩
      rw [announces_body, hna] at ha
      cases ha
    | @cons a d m fs ha hd _ ih =>
      intro n
      have e1 : dump (.line (a ++ announce d.length m) :: .literal d m :: fs ++ [Fragment.line (l ++ b!"\r\n")]) =
          ((a ++ (b!"{" ++ showNat d.length ++ modeBytes m ++ b!"}\r")) ++ b!"\n") ++ d ++ dump (fs ++ [.line (l ++ b!"\r\n")]) := by
        simp [dump, Fragment.data, announce_eq]
      rw [e1]
      obtain ⟨is, his⟩ := ih _
      refine ⟨_, .more ⟨_, rfl, ?_⟩ ?_ (endsWith_body _) (a := ⟨m, d.length⟩) rfl his⟩
      · have := unbroken_not_mem ha
        have := announce_noLF d.length m
        simp_all
      · rw [announces_body, scan_announced hd]
        rfl
  obtain ⟨is, his⟩ := key 0
  exact ⟨is, by rw [he]; exact his⟩

/-! ### The loop -/

theorem progress_none {s f : Frag.State} (h : s.progress = (f, none)) : f.unparsed = [] ∧ f.complete = false ∧ f.progress = (f, none) := by
  have h1 : ∀ (t : Frag.State) (p : Parser), t.progressWith p = (f, none) → f.unparsed = [] ∧ f.complete = false := by
    intro t p h
    unfold State.progressWith at h
    rcases hr : p.parse t.unparsed with ⟨p', c, o⟩
    rw [hr] at h
    cases o with
    | some j => simp at h
    | none =>
      simp only [Prod.mk.injEq, and_true] at h
      rw [← h, dequeue_unparsed]
      refine ⟨?_, by simp [State.complete, parser_dequeue]⟩
      simp only [List.drop_eq_nil_iff]
      cases p with
      | line p =>
        rcases lf_cases t.unparsed with h' | ⟨pre, rest, hu, h'⟩
        · simp only [Parser.parse, parse_noLF p _ h', Prod.mk.injEq] at hr
          omega
        · simp [Parser.parse, hu, parse_LF p pre rest h'] at hr
      | literal p =>
        simp only [Parser.parse, LiteralParser.parse] at hr
        split at hr
        · simp only [Prod.mk.injEq] at hr
          omega
        · simp at hr
  have h2 : f.unparsed = [] ∧ f.complete = false := by
    unfold State.progress at h
    cases hq : s.parser with
    | some p => rw [hq] at h; exact h1 _ _ h
    | none => rw [hq] at h; exact h1 _ _ h
  have e0 : ∀ t : Frag.State, t.enqueue [] = t := by intro t; simp [State.enqueue]
  have := progress_enqueue_none s f [] h
  rw [e0, e0, h] at this
  exact ⟨h2.1, h2.2, this.symm⟩

variable [Quirks]

theorem shown_append (max : Nat) (ms : List Bytes) (m : Bytes) :
    shown max (ms ++ [m]) = shown max ms ++
      (if (shown max ms).all (fun e => match e with | .badGreeting => true | _ => false) then
        match whole .greeting max m with | some g => [.greeting g] | none => [.badGreeting]
       else [shownResponse max m]) := by
  induction ms with
  | nil =>
    cases hw : whole .greeting max m <;> simp [shown, hw]
  | cons a ms ih =>
    cases hw : whole .greeting max a with
    | some g => simp [shown, hw]
    | none => simp [shown, hw, ih]

/-- The invariant of the loop. -/
structure ViewerInv (max : Nat) (B : Bytes) (x : Viewer × List Bytes) (ms : List Bytes) (cur : Bytes) (infos : List Info) : Prop where
  bytes : B = ms.flatten ++ cur ++ x.1.frag.unparsed ++ x.2.flatten
  messages : ∀ m ∈ ms, IsMessage m
  inv : Inv x.1.frag cur infos
  size : x.1.frag.maxSize = some max
  poisoned : x.1.frag.poisoned = false
  log : x.1.log = shown max (ms ++ if x.1.frag.complete then [cur] else [])
  phase : x.1.phase = .greeting ↔ x.1.log.all (fun e => match e with | .badGreeting => true | _ => false) = true

theorem viewerInv_init (max : Nat) (chunks : List Bytes) : ViewerInv max chunks.flatten (Viewer.init max, chunks) [] [] [] where
  bytes := by simp [Viewer.init, State.init]
  messages := by simp
  inv := inv_init _
  size := rfl
  poisoned := rfl
  log := rfl
  phase := by simp [Viewer.init]

theorem decodeMessage_whole {k : Codec} {f : Frag.State} {cur : Bytes} {infos : List Info} {max : Nat} (h : Inv f cur infos)
    (hs : f.maxSize = some max) (hp : f.poisoned = false) :
    whole k max cur = (match f.decodeMessage k.decoder with | .ok m => some m | _ => none) := by
  unfold whole State.decodeMessage
  have he := h.exceeded
  have hb := h.buffer
  rw [hs] at he hb
  by_cases hlen : cur.length ≤ max
  · have : f.exceeded = false := by
      rw [he]; simp; omega
    have hb' : f.buffer = cur := by rw [hb]; exact List.take_of_length_le hlen
    simp only [hlen, if_true, this, hp, hb', Bool.false_eq_true, if_false, Codec.decoder]
    cases k.decode cur with
    | ok rem m => cases rem <;> simp
    | _ => simp
  · have : f.exceeded = true := by
      rw [he]; simp; omega
    simp [hlen, this]

theorem viewerInv_iterate {max : Nat} {B : Bytes} {x : Viewer × List Bytes} {ms : List Bytes} {cur : Bytes} {infos : List Info}
    (h : ViewerInv max B x ms cur infos) : ∃ ms' cur' infos', ViewerInv max B (Viewer.iterate x) ms' cur' infos' := by
  obtain ⟨v, chunks⟩ := x
  obtain ⟨y, h1, h2, h3, h4⟩ := progress_inv v.frag cur infos h.inv
  have hpo : v.frag.progress.1.poisoned = false := by
    rw [h4, h.poisoned]; simp
  -- the messages before the current one
  obtain ⟨ms', cur', hms, hmsg, hlog, hcur⟩ : ∃ ms' cur', ms.flatten ++ cur ++ v.frag.unparsed = ms'.flatten ++ cur' ++ v.frag.progress.1.unparsed ∧
      (∀ m ∈ ms', IsMessage m) ∧ v.log = shown max ms' ∧ cur' = (if v.frag.complete then [] else cur) ++ y := by
    cases hc : v.frag.complete with
    | false =>
      refine ⟨ms, cur ++ y, by rw [h1]; simp, h.messages, ?_, by simp⟩
      have := h.log
      simpa [hc] using this
    | true =>
      refine ⟨ms ++ [cur], y, by rw [h1]; simp, ?_, ?_, by simp⟩
      · intro m hm
        rcases List.mem_append.1 hm with hm | hm
        · exact h.messages m hm
        · have := h.inv.agrees
          simp only [State.complete, Option.isNone_iff_eq_none] at hc
          rw [hc] at this
          rw [List.mem_singleton] at hm
          subst hm
          exact ⟨_, this⟩
      · have := h.log
        simpa [hc] using this
  rw [← hcur] at h2
  rcases hpr : v.frag.progress with ⟨f, o⟩
  rw [hpr] at h2 h3 hpo hms
  simp only at h2 h3 hpo hms
  have hB := h.bytes
  simp only at hB
  rw [hms] at hB
  refine ⟨ms', cur', (if v.frag.complete then [] else infos) ++ o.toList, ?_⟩
  cases o with
  | none =>
    have hn := progress_none hpr
    cases chunks with
    | nil =>
      have e : Viewer.iterate (v, []) = ({ v with frag := f }, []) := by simp [Viewer.iterate, hpr]
      rw [e]
      exact ⟨hB, hmsg, h2, h3.trans h.size, hpo, by simp [hn.2.1, hlog], h.phase⟩
    | cons c rest =>
      have e : Viewer.iterate (v, c :: rest) = ({ v with frag := f.enqueue c }, rest) := by simp [Viewer.iterate, hpr]
      rw [e]
      refine ⟨?_, hmsg, ⟨h2.agrees, h2.buffer, h2.exceeded⟩, h3.trans h.size, hpo, ?_, h.phase⟩
      · rw [hB]; simp [State.enqueue]
      · have : (f.enqueue c).complete = false := hn.2.1
        simp [this, hlog]
  | some i =>
    have e : Viewer.iterate (v, chunks) = (({ v with frag := f } : Viewer).react, chunks) := by simp [Viewer.iterate, hpr]
    rw [e]
    have hfrag : ({ v with frag := f } : Viewer).react.frag = f := by
      unfold Viewer.react
      split
      · rfl
      · split <;> split <;> rfl
    have hphase := h.phase
    simp only at hphase
    refine ⟨by rw [hfrag]; exact hB, hmsg, by rw [hfrag]; exact h2, by rw [hfrag]; exact h3.trans h.size, by rw [hfrag]; exact hpo, ?_, ?_⟩
    · rw [hfrag]
      simp only
      cases hc : f.complete with
      | false => simp [Viewer.react, hc, hlog]
      | true =>
        simp only [if_true]
        rw [shown_append, ← hlog]
        have hg := decodeMessage_whole (k := .greeting) h2 (h3.trans h.size) hpo
        have hr := decodeMessage_whole (k := .response) h2 (h3.trans h.size) hpo
        simp only [Viewer.react, hc, Bool.not_true, Bool.false_eq_true, if_false, shownResponse]
        rw [hg, hr]
        cases hph : v.phase with
        | greeting =>
          rw [if_pos (hphase.1 hph)]
          simp only
          cases f.decodeMessage Codec.greeting.decoder <;> rfl
        | response =>
          rw [if_neg (fun h => by have := hphase.2 h; rw [hph] at this; cases this)]
          simp only
          cases f.decodeMessage Codec.response.decoder <;> rfl
    · unfold Viewer.react
      split
      · exact hphase
      · simp only
        cases hph : v.phase with
        | greeting =>
          have := hphase.1 hph
          simp only
          cases f.decodeMessage Codec.greeting.decoder <;> simp [hph, this]
        | response =>
          have : ¬ v.log.all _ = true := fun h => by have := hphase.2 h; rw [hph] at this; cases this
          simp only
          cases f.decodeMessage Codec.response.decoder <;> simp [hph]

theorem viewerInv_after {max : Nat} (chunks : List Bytes) (n : Nat) :
    ∃ ms cur infos, ViewerInv max chunks.flatten (Viewer.after n (Viewer.init max, chunks)) ms cur infos := by
  induction n with
  | zero => exact ⟨_, _, _, viewerInv_init max chunks⟩
  | succ n ih =>
    obtain ⟨ms, cur, infos, h⟩ := ih
    exact viewerInv_iterate h

/-- The work that is left. -/
def viewerWork (x : Viewer × List Bytes) : Nat :=
  2 * x.1.frag.unparsed.length + rank x.1.frag.parser + (x.2.map fun c => 2 * c.length + 1).sum

theorem react_frag (v : Viewer) : v.react.frag = v.frag := by
  unfold Viewer.react
  split
  · rfl
  · split <;> split <;> rfl

theorem viewer_waits (x : Viewer × List Bytes) : ∃ n, (Viewer.after n x).2 = [] ∧ (Viewer.after n x).1.frag.progress.2 = none := by
  have after_succ : ∀ n x, Viewer.after (n + 1) x = Viewer.after n (Viewer.iterate x) := by
    intro n
    induction n with
    | zero => intro x; rfl
    | succ n ih => intro x; rw [Viewer.after, ih, Viewer.after]
  generalize hw : viewerWork x = w
  induction w using Nat.strongRecOn generalizing x with
  | ind w ih =>
    obtain ⟨v, chunks⟩ := x
    rcases hpr : v.frag.progress with ⟨f, o⟩
    cases o with
    | some i =>
      have e : Viewer.iterate (v, chunks) = (({ v with frag := f } : Viewer).react, chunks) := by simp [Viewer.iterate, hpr]
      have := progress_rank _ _ _ hpr
      obtain ⟨n, hn⟩ := ih (viewerWork (Viewer.iterate (v, chunks)))
        (by rw [← hw, e]; simp only [viewerWork, react_frag]; omega) _ rfl
      exact ⟨n + 1, by rw [after_succ]; exact hn⟩
    | none =>
      cases chunks with
      | nil => exact ⟨0, rfl, by simp [Viewer.after, hpr]⟩
      | cons c rest =>
        have e : Viewer.iterate (v, c :: rest) = ({ v with frag := f.enqueue c }, rest) := by simp [Viewer.iterate, hpr]
        have := Session.progress_none_rank hpr
        obtain ⟨n, hn⟩ := ih (viewerWork (Viewer.iterate (v, c :: rest)))
          (by
            rw [← hw, e]
            simp only [viewerWork, List.map_cons, List.sum_cons, State.enqueue, List.length_append]
            omega) _ rfl
        exact ⟨n + 1, by rw [after_succ]; exact hn⟩

theorem viewer_final {max : Nat} (chunks : List Bytes) :
    ∃ n ms u, chunks.flatten = ms.flatten ++ u ∧ (∀ m ∈ ms, IsMessage m) ∧ IsUnfinished u ∧
      ∀ k, n ≤ k → (Viewer.after k (Viewer.init max, chunks)).1.log = shown max ms ∧ (Viewer.after k (Viewer.init max, chunks)).2 = [] := by
  obtain ⟨n, h1, h2⟩ := viewer_waits (Viewer.init max, chunks)
  obtain ⟨ms, cur, infos, h⟩ := viewerInv_after (max := max) chunks (n + 1)
  rcases hx : Viewer.after n (Viewer.init max, chunks) with ⟨v, rest⟩
  rw [hx] at h1 h2
  simp only at h1 h2
  subst h1
  rcases hpr : v.frag.progress with ⟨f, o⟩
  rw [hpr] at h2
  simp only at h2
  subst h2
  have hn := progress_none hpr
  have e : Viewer.after (n + 1) (Viewer.init max, chunks) = ({ v with frag := f }, []) := by
    rw [Viewer.after, hx]; simp [Viewer.iterate, hpr]
  have e' : ∀ k, Viewer.after (n + 1 + k) (Viewer.init max, chunks) = ({ v with frag := f }, []) := by
    intro k
    induction k with
    | zero => exact e
    | succ k ih => rw [← Nat.add_assoc, Viewer.after, ih]; simp [Viewer.iterate, hn.2.2]
  rw [e] at h
  refine ⟨n + 1, ms, cur, ?_, h.messages, ?_, ?_⟩
  · have := h.bytes
    simpa [hn.1] using this
  · have := h.inv.agrees
    simp only at this
    have hc := hn.2.1
    cases hp : f.parser with
    | none => simp [State.complete, hp] at hc
    | some p => rw [hp] at this; exact ⟨_, agrees_unfinished this⟩
  · intro k hk
    obtain ⟨d, rfl⟩ := Nat.exists_eq_add_of_le hk
    rw [e']
    have := h.log
    simp only [hn.2.1, Bool.false_eq_true, if_false, List.append_nil] at this
    exact ⟨this, rfl⟩

theorem shown_prefix {max : Nat} {ms ms' : List Bytes} (h : ms <+: ms') : shown max ms <+: shown max ms' := by
  obtain ⟨r, rfl⟩ := h
  induction ms with
  | nil => exact List.nil_prefix
  | cons m ms ih =>
    cases hw : whole .greeting max m with
    | some g => simp [shown, hw]
    | none => simpa [shown, hw] using ih

theorem whole_encode {max : Nat} (k : Codec) (m : k.Message) (hs : Supported k m) (hl : (dump (k.encode m)).length ≤ max) :
    whole k max (dump (k.encode m)) = some (k.norm m) := by
  have := round_trip k m hs []
  rw [List.append_nil] at this
  simp [whole, hl, this]

end Imap
