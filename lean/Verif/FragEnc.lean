import Verif.FragHist
import Verif.Shape
/-
Lemmas: the Fragmentizer on the bytes that the encoder produced.
-/
set_option maxRecDepth 10000

namespace Imap.Frag

theorem dequeue_fits {s : State} {c : Nat} (h : ∀ M ∈ s.maxSize, s.buffer.length + c ≤ M) :
    s.dequeue c = { s with unparsed := s.unparsed.drop c, buffer := s.buffer ++ s.unparsed.take c } := by
  unfold State.dequeue
  cases hm : s.maxSize with
  | none => rfl
  | some M =>
    have := h M hm
    simp only
    rw [if_neg (by omega)]

theorem fragmentBytes_last {s : State} {pre d : Bytes} (h : s.buffer = pre ++ d) (f : Fragment) (hf : f.data = d) (rest : List Fragment) :
    s.fragmentBytes (infoOf pre.length f rest) = d := by
  rw [fragmentBytes_eq, h]
  have := slice_mid pre d []
  simp only [List.append_nil] at this
  cases f <;> (cases hf; exact this)

theorem progress_line {s : State} {body rest : Bytes} (hp : s.parser = some (.line (.new s.buffer.length)))
    (hu : s.unparsed = body ++ b!"\n" ++ rest) (hb : (10 : UInt8) ∉ body)
    (hm : ∀ M ∈ s.maxSize, s.buffer.length + (body ++ b!"\n").length ≤ M) :
    let info := Info.line s.buffer.length (s.buffer.length + (body ++ b!"\n").length) (annOf (scan .other body)) (endOf (scan .other body))
    s.progress = ({ s with unparsed := rest, buffer := s.buffer ++ (body ++ b!"\n"), parser := nextParser info }, some info) := by
  have hu' : s.unparsed = body ++ 10 :: rest := by simpa using hu
  intro info
  unfold State.progress
  rw [hp]
  simp only
  have h1 := parse_LF (.new s.buffer.length) body rest hb
  rw [progressWith_eq s _ _ _ _ (by simp only [Parser.parse, hu', h1]; rfl)]
  rw [dequeue_fits (by simpa using hm)]
  have e1 : (body ++ 10 :: rest).take (body.length + 1) = body ++ b!"\n" := by
    rw [show body ++ 10 :: rest = (body ++ [10]) ++ rest by simp, List.take_left' (by simp)]
  have e2 : (body ++ 10 :: rest).drop (body.length + 1) = rest := by
    rw [show body ++ 10 :: rest = (body ++ [10]) ++ rest by simp, List.drop_left' (by simp)]
  simp only [finish, hu', e1, e2, LineParser.new]
  simp [info, Nat.add_assoc]

theorem progress_literal {s : State} {d rest : Bytes} (hp : s.parser = some (.literal (.new s.buffer.length d.length)))
    (hu : s.unparsed = d ++ rest) (hm : ∀ M ∈ s.maxSize, s.buffer.length + d.length ≤ M) :
    let info := Info.literal s.buffer.length (s.buffer.length + d.length)
    s.progress = ({ s with unparsed := rest, buffer := s.buffer ++ d, parser := nextParser info }, some info) := by
  intro info
  unfold State.progress
  rw [hp]
  simp only
  have h1 : (LiteralParser.new s.buffer.length d.length).parse (d ++ rest) =
      (⟨s.buffer.length, s.buffer.length + d.length, 0⟩, d.length, some (.literal s.buffer.length (s.buffer.length + d.length))) := by
    simp [LiteralParser.parse, LiteralParser.new]
  rw [progressWith_eq s _ _ _ _ (by simp only [Parser.parse, hu, h1]; rfl)]
  rw [dequeue_fits (by simpa using hm)]
  simp [finish, hu, info]

theorem announce_eq (n : Nat) (m : Mode) : announce n m = b!"{" ++ showNat n ++ modeBytes m ++ b!"}\r" ++ b!"\n" := by
  cases m <;> simp [announce, modeBytes]

theorem scan_announced {a : Bytes} {n : Nat} {m : Mode} (hn : n < 2 ^ 32) :
    scan .other (a ++ (b!"{" ++ showNat n ++ modeBytes m ++ b!"}\r")) = .cr (some ⟨m, n⟩) := by
  have e : a ++ (b!"{" ++ showNat n ++ modeBytes m ++ b!"}\r") = (a ++ b!"{" ++ showNat n ++ modeBytes m ++ b!"}") ++ b!"\r" := by simp
  have := scan_announce .other a (showNat n) m (showNat_ne_nil n) (fun d hd => List.all_eq_true.1 (showNat_digits n) d hd)
    (by rw [decVal_showNat]; exact hn)
  rw [e, scan_append, this, decVal_showNat]
  rfl

theorem unbroken_not_mem {a : Bytes} (h : isUnbroken a = true) : (10 : UInt8) ∉ a := by
  intro hm
  have := List.all_eq_true.1 h 10 hm
  simp at this

theorem announce_noLF (n : Nat) (m : Mode) : (10 : UInt8) ∉ b!"{" ++ showNat n ++ modeBytes m ++ b!"}\r" := by
  have := unbroken_not_mem (isSafe_unbroken (isSafe_showNat n))
  cases m <;> simp [modeBytes, this]

/-- The reports for a message with the given pieces and last line. -/
theorem drains_message {p q : Bytes → Prop} (hp : ∀ a, p a → isUnbroken a = true) (hq : ∀ d, q d → d.length < 2 ^ 32)
    {fs : List Fragment} (h : Pieces p q fs) {l : Bytes} (hl : p l) (hna : annOf (scan .other (l ++ b!"\r")) = none)
    (s : State) (rest : Bytes) (hparser : s.parser = some (.line (.new s.buffer.length)))
    (hu : s.unparsed = dump (fs ++ [.line (l ++ b!"\r\n")]) ++ rest) (he : s.exceeded = false) (hpo : s.poisoned = false)
    (hm : ∀ M ∈ s.maxSize, s.buffer.length + (dump (fs ++ [.line (l ++ b!"\r\n")])).length ≤ M) :
    ∀ evs sf, Drains { s with unparsed := rest, buffer := s.buffer ++ dump (fs ++ [.line (l ++ b!"\r\n")]), parser := none } evs sf →
      Drains s (eventsOf s.buffer (fs ++ [.line (l ++ b!"\r\n")]) ++ evs) sf := by
  induction h generalizing s with
  | nil =>
    intro evs sf hd
    have e0 : dump ([] ++ [Fragment.line (l ++ b!"\r\n")]) = (l ++ b!"\r") ++ b!"\n" := by simp [dump, Fragment.data]
    rw [e0] at hu hm hd
    have hstep := progress_line (body := l ++ b!"\r") (rest := rest) hparser hu (by simp [unbroken_not_mem (hp l hl)]) hm
    rw [hna, show endOf (scan .other (l ++ b!"\r")) = .crlf by
      rw [scan_append]
      obtain ⟨a, ha⟩ := (step_cr (scan .other l) 13).2 rfl
      simp only [scan, List.foldl_cons, List.foldl_nil] at ha ⊢
      rw [ha]; rfl] at hstep
    have := Drains.step hstep hd
    convert this using 2
    have e1 : (l ++ b!"\r") ++ b!"\n" = l ++ b!"\r\n" := by simp
    simp only [List.nil_append, eventsOf, State.observe, he, hpo, List.cons_append]
    congr 1
    have := fragmentBytes_last (s := { s with unparsed := rest, buffer := s.buffer ++ (l ++ b!"\r" ++ b!"\n"), parser := none }) rfl
      (.line (l ++ b!"\r\n")) e1.symm []
    simp only [infoOf, announced, nextParser, State.complete, Fragment.data] at this ⊢
    rw [e1] at this ⊢
    rw [he, hpo] at this
    rw [this]
    rfl
  | @cons a d m fs ha hqd _ ih =>
    intro evs sf hd
    have hlen := hq d hqd
    have e0 : dump (Fragment.line (a ++ announce d.length m) :: .literal d m :: fs ++ [.line (l ++ b!"\r\n")]) =
        (a ++ (b!"{" ++ showNat d.length ++ modeBytes m ++ b!"}\r")) ++ b!"\n" ++ (d ++ dump (fs ++ [.line (l ++ b!"\r\n")])) := by
      simp [dump, Fragment.data, announce_eq]
    have e1 : (a ++ (b!"{" ++ showNat d.length ++ modeBytes m ++ b!"}\r")) ++ b!"\n" = a ++ announce d.length m := by
      simp [announce_eq]
    rw [e0] at hu hm hd
    have hbody : (10 : UInt8) ∉ a ++ (b!"{" ++ showNat d.length ++ modeBytes m ++ b!"}\r") := by
      rw [List.mem_append]
      rintro (h | h)
      · exact unbroken_not_mem (hp a ha) h
      · exact announce_noLF _ _ h
    have hstep := progress_line (body := a ++ (b!"{" ++ showNat d.length ++ modeBytes m ++ b!"}\r"))
      (rest := d ++ (dump (fs ++ [.line (l ++ b!"\r\n")]) ++ rest)) hparser (by rw [hu]; simp) hbody
      (fun M hM => by have := hm M hM; rw [List.length_append] at this; omega)
    rw [scan_announced hlen, e1] at hstep
    simp only [annOf, endOf, nextParser] at hstep
    rw [e1] at hm hd
    generalize hs1 : ({ s with
      unparsed := d ++ (dump (fs ++ [Fragment.line (l ++ b!"\r\n")]) ++ rest)
      buffer := s.buffer ++ (a ++ announce d.length m)
      parser := some (.literal (.new (s.buffer.length + (a ++ announce d.length m).length) d.length)) } : State) = s1 at hstep
    have hs1b : s1.buffer = s.buffer ++ (a ++ announce d.length m) := by rw [← hs1]
    have hs1l : s1.buffer.length = s.buffer.length + (a ++ announce d.length m).length := by rw [hs1b, List.length_append]
    have hstep2 := progress_literal (s := s1) (d := d) (rest := dump (fs ++ [.line (l ++ b!"\r\n")]) ++ rest)
      (by rw [hs1l, ← hs1]) (by rw [← hs1])
      (fun M hM => by
        have := hm M (by rw [← hs1] at hM; exact hM)
        simp only [List.length_append] at this hs1l
        omega)
    simp only [nextParser] at hstep2
    generalize hs2 : ({ s1 with
      unparsed := dump (fs ++ [Fragment.line (l ++ b!"\r\n")]) ++ rest
      buffer := s1.buffer ++ d
      parser := some (.line (.new (s1.buffer.length + d.length))) } : State) = s2 at hstep2
    have hs2b : s2.buffer = s1.buffer ++ d := by rw [← hs2]
    have hs2l : s2.buffer.length = s1.buffer.length + d.length := by rw [hs2b, List.length_append]
    have hd2 := ih s2 (by rw [hs2l, ← hs2]) (by rw [← hs2]) (by rw [← hs2, ← hs1]; exact he) (by rw [← hs2, ← hs1]; exact hpo)
      (fun M hM => by
        have := hm M (by rw [← hs2, ← hs1] at hM; exact hM)
        simp only [List.length_append] at this hs1l hs2l ⊢
        omega)
      evs sf (by
        rw [hs2b, hs1b, ← hs2, ← hs1]
        simpa using hd)
    have := Drains.step hstep (Drains.step hstep2 hd2)
    convert this using 2
    simp only [eventsOf, State.observe, List.cons_append]
    congr 1
    · have hf := fragmentBytes_last (s := s1) hs1b (.line (a ++ announce d.length m)) rfl (.literal d m :: (fs ++ [.line (l ++ b!"\r\n")]))
      simp only [infoOf, announced, Fragment.data] at hf ⊢
      rw [hf]
      rw [← hs1]
      simp [State.complete, he, hpo]
    · rw [hs2b, hs1b]
      congr 1
      have hf := fragmentBytes_last (s := s2) hs2b (.literal d m) rfl (fs ++ [.line (l ++ b!"\r\n")])
      simp only [infoOf, Fragment.data] at hf ⊢
      rw [← hs1b, hf]
      rw [← hs2, ← hs1]
      simp [State.complete, he, hpo]


/-! ### The last line announces nothing -/

theorem safe_contains {pre rest : Bytes} (h : isBraced (pre ++ 123 :: rest) = true) : (34 : UInt8) ∈ rest := by
  induction pre with
  | nil =>
    simp only [List.nil_append, isBraced, Bool.and_eq_true] at h
    simpa using h.1.2
  | cons b pre ih =>
    simp only [List.cons_append, isBraced, Bool.and_eq_true] at h
    exact ih h.2

theorem modeBytes_noQuote (m : Mode) : (34 : UInt8) ∉ modeBytes m ∧ (32 : UInt8) ∉ modeBytes m := by cases m <;> decide

theorem announces_crlf {l : Bytes} {a : Ann} (h : Announces (l ++ b!"\r\n") a) :
    ∃ pre digits, l = pre ++ 123 :: (digits ++ modeBytes a.mode ++ b!"}") ∧ digits ≠ [] ∧ (∀ d ∈ digits, isDigit d) ∧
      decVal digits = a.length ∧ a.length < 2 ^ 32 := by
  obtain ⟨pre, digits, ending, h, hr⟩ := h
  refine ⟨pre, digits, ?_, hr⟩
  cases ending with
  | lf =>
    have e : l ++ b!"\r" ++ b!"\n" = (pre ++ b!"{" ++ digits ++ modeBytes a.mode ++ b!"}") ++ b!"\n" := by simpa [endingBytes] using h
    have h2 := List.append_inj_left' e (by simp)
    have h3 := List.append_inj_right' h2 (by simp)
    simp at h3
  | crlf =>
    have e : l ++ b!"\r\n" = (pre ++ b!"{" ++ digits ++ modeBytes a.mode ++ b!"}") ++ b!"\r\n" := by simpa [endingBytes] using h
    have h2 := List.append_inj_left' e (by simp)
    simpa using h2

theorem safe_no_announce {l : Bytes} (h : isSafe l = true) (a : Ann) : ¬ Announces (l ++ b!"\r\n") a := by
  intro ha
  obtain ⟨pre, digits, rfl, -, hd, -⟩ := announces_crlf ha
  have := safe_contains (isSafe_braced h)
  simp only [List.mem_append, List.mem_singleton] at this
  rcases this with (h | h) | h
  · exact absurd (hd _ h) (by decide)
  · exact (modeBytes_noQuote a.mode).1 h
  · simp at h

theorem text_no_announce {l t : Bytes} (h : ∀ a, ¬ Announces (t ++ b!"\r\n") a) (a : Ann) : ¬ Announces (l ++ b!" " ++ t ++ b!"\r\n") a := by
  intro ha
  obtain ⟨pre, digits, he, hne, hd, hv, hlt⟩ := announces_crlf ha
  rw [List.append_assoc] at he
  have hsp : (32 : UInt8) ∉ 123 :: (digits ++ modeBytes a.mode ++ b!"}") := by
    simp only [List.mem_cons, List.mem_append, not_or]
    refine ⟨by decide, ⟨fun h => absurd (hd _ h) (by decide), (modeBytes_noQuote a.mode).2⟩, by simp⟩
  rcases List.append_eq_append_iff.1 he with ⟨w, h1, h2⟩ | ⟨w, h1, h2⟩
  · cases w with
    | nil =>
      simp only [List.nil_append] at h2
      rw [← h2] at hsp
      simp at hsp
    | cons c w =>
      simp only [List.cons_append, List.nil_append, List.cons.injEq] at h2
      refine h a ⟨w, digits, .crlf, ?_, hne, hd, hv, hlt⟩
      simp [h2.2, endingBytes]
  · rw [h2] at hsp
    simp at hsp

theorem Pieces.withFits {p q : Bytes → Prop} {fs : List Fragment} (h : Pieces p q fs)
    (hf : ∀ d mode, .literal d mode ∈ fs → d.length < 2 ^ 32) : Pieces p (fun d => d.length < 2 ^ 32) fs := by
  induction h with
  | nil => exact .nil
  | @cons a d m fs ha hd _ ih => exact .cons ha (hf d m (by simp)) (ih fun d m h => hf d m (by simp [h]))

/-- Supported messages have literals that are shorter than 4 GiB. -/
theorem supported_fits [Quirks] {k : Codec} {m : k.Message} (h : Supported k m) (d : Bytes) (mode : Mode)
    (hd : .literal d mode ∈ k.encode m) : d.length < 2 ^ 32 := by
  obtain ⟨s⟩ := message_shape .rt k m h
  have key : ∀ {p : Bytes → Prop} {fs : List Fragment}, Pieces p (Spec.FitsAt .rt) fs → .literal d mode ∈ fs → d.length < 2 ^ 32 := by
    intro p fs hp
    induction hp with
    | nil => simp
    | cons _ hq _ ih =>
      intro hm
      simp only [List.mem_cons, reduceCtorEq, Fragment.literal.injEq, false_or] at hm
      rcases hm with ⟨rfl, -⟩ | hm
      · exact hq rfl
      · exact ih hm
  rw [s.eq] at hd
  simp only [List.mem_append, List.mem_singleton, reduceCtorEq, or_false] at hd
  exact key s.announced hd

/-- What is known of the fragments of a transmissible message. -/
theorem transmissible_pieces [Quirks] {x : AnyMessage} (h : Transmissible x) :
    ∃ pieces l, x.encode = pieces ++ [.line (l ++ b!"\r\n")] ∧
      Pieces (fun a => isUnbroken a = true) (fun d => d.length < 2 ^ 32) pieces ∧ isUnbroken l = true ∧
      annOf (scan .other (l ++ b!"\r")) = none := by
  obtain ⟨k, m⟩ := x
  obtain ⟨s2⟩ := message_shape .line k m h.unbroken
  have hb : isUnbroken s2.body = true := s2.unbroken rfl
  refine ⟨s2.pieces, s2.body, s2.eq, ?_, hb, ?_⟩
  · have mono : ∀ {p p' q : Bytes → Prop} {fs}, Pieces p q fs → (∀ a, p a → p' a) → Pieces p' q fs := by
      intro p p' q fs hp h1
      induction hp with
      | nil => exact .nil
      | cons a b _ ih => exact .cons (h1 _ a) b ih
    refine mono (Pieces.withFits s2.announced fun d mode hd => h.fits d mode ?_) (fun a ha => ha rfl)
    show _ ∈ k.encode m
    rw [s2.eq]
    exact List.mem_append_left _ hd
  · have hna : ∀ a, ¬ Announces (s2.body ++ b!"\r\n") a := by
      rcases Option.eq_none_or_eq_some (k.trailingText m) with ht | ⟨t, ht⟩
      · exact safe_no_announce ((s2.safe ht).2 rfl)
      · obtain ⟨l, hl⟩ := s2.trailing t ht
        rw [hl]
        exact text_no_announce (h.text t ht)
    cases ha : annOf (scan .other (s2.body ++ b!"\r")) with
    | none => rfl
    | some a =>
      have := (announces_body (s2.body ++ b!"\r") a).2 ha
      exact absurd (by simpa using this) (hna a)

/-! ### Streams of messages -/

theorem drains_fresh {s : State} (h : s.parser = none) {evs sf} (hd : Drains s.startMessage evs sf) : Drains s evs sf := by
  have e : s.progress = s.startMessage.progress := by
    unfold State.progress
    rw [h]
    rfl
  cases hd with
  | done h' => exact .done (by rw [e]; exact h')
  | step h' hd => exact .step (by rw [e]; exact h') hd

theorem drains_stream [Quirks] (ms : List AnyMessage) (hms : ∀ x ∈ ms, Transmissible x) (s : State) (hs : s.startMessage = s)
    (hu : s.unparsed = stream ms) (hmax : ∀ M ∈ s.maxSize, ∀ x ∈ ms, (dump x.encode).length ≤ M) :
    ∃ sf, Drains s (ms.flatMap fun x => eventsOf [] x.encode) sf := by
  induction ms generalizing s with
  | nil =>
    refine ⟨s.progress.1, .done (Prod.ext rfl ?_)⟩
    have hu' : s.unparsed = [] := hu
    rw [← hs]
    simp [State.progress, State.startMessage, State.progressWith, hu', Parser.parse, LineParser.parse]
  | cons x ms ih =>
    obtain ⟨pieces, l, he, hp, hl, hna⟩ := transmissible_pieces (hms x (by simp))
    have hb : s.buffer = [] := by rw [← hs]; rfl
    have hmx := fun M hM => hmax M hM x (by simp)
    generalize ht : ({ s with unparsed := stream ms, buffer := s.buffer ++ dump x.encode, parser := none } : State) = t
    obtain ⟨sf, hsf⟩ := ih (fun y hy => hms y (by simp [hy])) t.startMessage rfl (by rw [← ht]; rfl)
      (fun M hM y hy => hmax M (by rw [← ht] at hM; exact hM) y (by simp [hy]))
    refine ⟨sf, ?_⟩
    have := drains_message (fun _ h => h) (fun _ h => h) hp hl hna s (stream ms) (by rw [hb, ← hs]; rfl)
      (by rw [hu, ← he]; rfl) (by rw [← hs]; rfl) (by rw [← hs]; rfl)
      (fun M hM => by rw [← he, hb]; simpa using hmx M hM) _ sf
      (by rw [← he, ht]; exact drains_fresh (by rw [← ht]) hsf)
    rw [← he, hb] at this
    simpa using this

/-! ### Complete states -/

/-- If the message is complete, the last report said so, and showed the same message. -/
def LastReport (s : State) (evs : List Event) : Prop :=
  s.complete = true → ∃ pre e, evs = pre ++ [e] ∧ e.complete = true ∧ e.message = s.buffer ∧ e.exceeded = s.exceeded ∧ e.poisoned = s.poisoned

theorem lastReport_run (ops : List Op) (hp : Plain ops) (s : State) (evs : List Event) (h : LastReport s evs) :
    LastReport (s.run ops).1 (evs ++ (s.run ops).2) := by
  induction ops generalizing s evs with
  | nil => simpa [State.run] using h
  | cons op ops ih =>
    have hp' : Plain ops := fun o ho => hp o (by simp [ho])
    simp only [State.run]
    rw [← List.append_assoc]
    refine ih hp' _ _ ?_
    rcases hp op (by simp) with ⟨bs, rfl⟩ | rfl
    · simp only [State.exec, List.append_nil]
      exact h
    · simp only [State.exec]
      rcases hpr : s.progress with ⟨s', _ | i⟩
      · intro hc
        exfalso
        have hc : s'.parser.isNone = true := hc
        have key : ∀ (t : State) (p : Parser), t.progressWith p = (s', none) → False := by
          intro t p ht
          unfold State.progressWith at ht
          cases hr : (p.parse t.unparsed).2.2 with
          | some i => simp [hr] at ht
          | none =>
            simp only [hr, Prod.mk.injEq, and_true] at ht
            rw [← ht] at hc
            unfold State.dequeue at hc
            simp only at hc
            split at hc
            · split at hc <;> simp at hc
            · simp at hc
        unfold State.progress at hpr
        split at hpr
        · exact key _ _ hpr
        · exact key _ _ hpr
      · intro hc
        exact ⟨evs, s'.observe i, rfl, hc, rfl, rfl, rfl⟩

theorem eventsOf_complete {fs : List Fragment} {pre : Bytes} {a b : List Event} {e : Event} (h : eventsOf pre fs = a ++ e :: b) :
    e.complete = b.isEmpty := by
  induction fs generalizing pre a with
  | nil => simp [eventsOf] at h
  | cons f fs ih =>
    simp only [eventsOf] at h
    cases a with
    | nil =>
      simp only [List.nil_append, List.cons.injEq] at h
      rw [← h.1, ← h.2]
      cases fs <;> rfl
    | cons x a =>
      simp only [List.cons_append, List.cons.injEq] at h
      exact ih h.2

theorem eventsOf_last {fs : List Fragment} {pre : Bytes} {a : List Event} {e : Event} (h : eventsOf pre fs = a ++ [e]) :
    e.message = pre ++ dump fs ∧ e.exceeded = false ∧ e.poisoned = false := by
  induction fs generalizing pre a with
  | nil => simp [eventsOf] at h
  | cons f fs ih =>
    simp only [eventsOf] at h
    cases a with
    | nil =>
      simp only [List.nil_append, List.cons.injEq] at h
      have hfs : fs = [] := by
        cases fs with
        | nil => rfl
        | cons _ _ => simp [eventsOf] at h
      subst hfs
      rw [← h.1]
      simp [dump]
    | cons x a =>
      simp only [List.cons_append, List.cons.injEq] at h
      have := ih h.2
      rw [this.1]
      simpa [dump] using this.2

theorem eventsOf_count {fs : List Fragment} {pre : Bytes} (h : fs ≠ []) : (eventsOf pre fs).countP (·.complete) = 1 := by
  induction fs generalizing pre with
  | nil => exact absurd rfl h
  | cons f fs ih =>
    cases fs with
    | nil => rfl
    | cons g fs =>
      rw [eventsOf, List.countP_cons, ih (by simp)]
      rfl

/-- A prefix of the reports that ends with a complete message. -/
theorem prefix_complete {α : Type} {F : α → List Event} (hF : ∀ x a e b, F x = a ++ e :: b → e.complete = b.isEmpty)
    (ms : List α) (pre rest : List Event) (e : Event) (he : e.complete = true) (h : ms.flatMap F = pre ++ e :: rest) :
    ∃ before x after, ms = before ++ x :: after ∧ pre ++ [e] = before.flatMap F ++ F x ∧ ∃ a, F x = a ++ [e] := by
  induction ms generalizing pre with
  | nil => simp at h
  | cons x ms ih =>
    rw [List.flatMap_cons] at h
    rcases List.append_eq_append_iff.1 h with ⟨w, h1, h2⟩ | ⟨w, h1, h2⟩
    · obtain ⟨before, y, after, e1, e2, e3⟩ := ih w h2
      exact ⟨x :: before, y, after, by rw [e1]; rfl, by rw [h1, List.append_assoc, e2]; simp, e3⟩
    · cases w with
      | nil =>
        simp only [List.append_nil] at h1
        simp only [List.nil_append] at h2
        obtain ⟨before, y, after, e1, e2, e3⟩ := ih [] h2.symm
        exact ⟨x :: before, y, after, by rw [e1]; rfl, by rw [← h1, List.flatMap_cons, List.append_assoc, ← e2]; simp, e3⟩
      | cons c w =>
        simp only [List.cons_append, List.cons.injEq] at h2
        obtain ⟨rfl, h2⟩ := h2
        have := hF x _ _ _ h1
        rw [he] at this
        have hw : w = [] := List.isEmpty_iff.1 this.symm
        subst hw
        exact ⟨[], x, ms, rfl, by simp [h1], pre, h1⟩

end Imap.Frag
