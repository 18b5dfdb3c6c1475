import Verif.FragLemmas
namespace Imap.Frag

/-! ### More input -/

theorem lf_cases (bs : Bytes) :
    ((10 : UInt8) ∉ bs) ∨ ∃ pre rest, bs = pre ++ 10 :: rest ∧ (10 : UInt8) ∉ pre := by
  induction bs with
  | nil => simp
  | cons b bs ih =>
    by_cases hb : b = 10
    · exact .inr ⟨[], bs, by simp [hb]⟩
    · rcases ih with h | ⟨pre, rest, rfl, h⟩
      · exact .inl (by simp [h, Ne.symm hb])
      · exact .inr ⟨b :: pre, rest, by simp, by simp [h, Ne.symm hb]⟩

theorem parse_append_some (p p' : Parser) (u v : Bytes) (c : Nat) (i : Info) (h : p.parse u = (p', c, some i)) :
    p.parse (u ++ v) = (p', c, some i) ∧ c ≤ u.length := by
  cases p with
  | line p =>
    rcases lf_cases u with h' | ⟨pre, rest, rfl, h'⟩
    · simp [Parser.parse, parse_noLF p u h'] at h
    · simp only [Parser.parse, parse_LF p pre rest h'] at h
      rw [List.append_assoc, List.cons_append]
      simp only [Parser.parse, parse_LF p pre _ h', h]
      simp at h ⊢
      omega
  | literal p =>
    simp only [Parser.parse, LiteralParser.parse] at h ⊢
    split at h
    · simp at h
    · rename_i hl
      simp at hl
      have : ¬ (u ++ v).length < p.remaining := by simp; omega
      rw [if_neg this]
      simp at h ⊢
      obtain ⟨h1, h2, h3⟩ := h
      simp [h1, h3]; omega

theorem parse_append_none (p p' : Parser) (u v : Bytes) (c : Nat) (h : p.parse u = (p', c, none)) :
    c = u.length ∧ p.parse (u ++ v) = ((p'.parse v).1, c + (p'.parse v).2.1, (p'.parse v).2.2) := by
  cases p with
  | line p =>
    rcases lf_cases u with h' | ⟨pre, rest, rfl, h'⟩
    · simp only [Parser.parse, parse_noLF p u h'] at h
      simp at h
      obtain ⟨rfl, rfl⟩ := h
      refine ⟨rfl, ?_⟩
      rcases lf_cases v with hv | ⟨pre, rest, rfl, hv⟩
      · have : (10 : UInt8) ∉ u ++ v := by simp [h', hv]
        simp only [Parser.parse, parse_noLF p _ this, parse_noLF _ v hv]
        simp [scan_append]; omega
      · have : (10 : UInt8) ∉ u ++ pre := by simp [h', hv]
        rw [← List.append_assoc]
        simp only [Parser.parse, parse_LF p _ _ this, parse_LF _ _ _ hv]
        simp [scan_append]; omega
    · simp [Parser.parse, parse_LF p pre rest h'] at h
  | literal p =>
    simp only [Parser.parse, LiteralParser.parse] at h ⊢
    split at h
    · rename_i hl
      simp at h
      obtain ⟨rfl, rfl⟩ := h
      refine ⟨rfl, ?_⟩
      by_cases hv : (u ++ v).length < p.remaining
      · have hv' : v.length < p.remaining - u.length := by simp at hv; omega
        simp only [hv, if_true]
        simp [hv']; omega
      · have hv' : ¬ v.length < p.remaining - u.length := by simp at hv; omega
        simp only [hv]
        simp [hv']; omega
    · simp at h

theorem dequeue_dequeue (s : State) (u v : Bytes) (c : Nat) (p p' : Option Parser) (hu : s.unparsed = u) (hc : c ≤ v.length) :
    ({ (({ s with parser := p }.dequeue u.length).enqueue v) with parser := p' }).dequeue c =
      { s with unparsed := u ++ v, parser := p' }.dequeue (u.length + c) := by
  subst hu
  unfold State.dequeue State.enqueue
  cases hm : s.maxSize with
  | none => simp [List.take_append, List.take_of_length_le, List.drop_append]
  | some size =>
    by_cases h1 : size - s.buffer.length < s.unparsed.length
    · have h2 : size - s.buffer.length < s.unparsed.length + c := by omega
      have h4 : s.buffer.length + min (size - s.buffer.length) s.unparsed.length = s.buffer.length + (size - s.buffer.length) := by omega
      by_cases h3 : size - (s.buffer.length + (size - s.buffer.length)) < c
      · simp [h1, h2, List.take_append, List.take_of_length_le, List.drop_append, h4, h3, List.take_take]
        omega
      · have : c = 0 := by omega
        subst this
        simp [h1, List.take_of_length_le]
    · by_cases h2 : size - s.buffer.length < s.unparsed.length + c
      · have h3 : size - (s.buffer.length + s.unparsed.length) < c := by omega
        have h5 : s.unparsed.length ≤ size - s.buffer.length := by omega
        simp [h1, h2, List.take_append, List.take_of_length_le, List.drop_append, h3, h5]
        congr 1
        omega
      · have h3 : ¬ size - (s.buffer.length + s.unparsed.length) < c := by omega
        simp [h1, h2, List.take_append, List.take_of_length_le, List.drop_append, h3]

theorem parse_count_le (p : Parser) (bs : Bytes) : (p.parse bs).2.1 ≤ bs.length := by
  rcases hr : p.parse bs with ⟨p', c, o⟩
  cases o with
  | none => have := (parse_append_none p p' bs [] c hr).1; simp; omega
  | some i => have := (parse_append_some p p' bs [] c i hr).2; simpa using this

theorem enqueue_parser (s : State) (v : Bytes) (p : Option Parser) :
    ({ s with parser := p }).enqueue v = { s.enqueue v with parser := p } := rfl

theorem dequeue_enqueue (s : State) (v : Bytes) (c : Nat) (hc : c ≤ s.unparsed.length) :
    (s.enqueue v).dequeue c = (s.dequeue c).enqueue v := by
  unfold State.dequeue State.enqueue
  cases s.maxSize with
  | none => simp [List.take_append_of_le_length hc, List.drop_append_of_le_length hc]
  | some m =>
    by_cases h : m - s.buffer.length < c <;>
      simp [h, List.take_append_of_le_length hc, List.drop_append_of_le_length hc]

def finish (o : Option Info) (s : State) : State × Option Info :=
  match o with
  | some info => ({ s with parser := nextParser info }, some info)
  | none => (s, none)

theorem progressWith_eq (s : State) (p p' : Parser) (c : Nat) (o : Option Info)
    (h : p.parse s.unparsed = (p', c, o)) :
    s.progressWith p = finish o ({ s with parser := some p' }.dequeue c) := by
  simp only [State.progressWith, h]; rfl

theorem progressWith_some (s s' : State) (p : Parser) (i : Info) (v : Bytes)
    (h : s.progressWith p = (s', some i)) : (s.enqueue v).progressWith p = (s'.enqueue v, some i) := by
  unfold State.progressWith at h ⊢
  rcases hr : p.parse s.unparsed with ⟨p', c, o⟩
  rw [hr] at h
  cases o with
  | none => simp at h
  | some j =>
    obtain ⟨h1, h2⟩ := parse_append_some p p' s.unparsed v c j hr
    have hu : p.parse (s.enqueue v).unparsed = (p', c, some j) := h1
    simp only [hu]
    simp at h
    obtain ⟨rfl, rfl⟩ := h
    have := dequeue_enqueue ({ s with parser := some p' }) v c h2
    show ({ (({ s with parser := some p' } : State).enqueue v).dequeue c with parser := nextParser j }, some j) = _
    rw [this]
    rfl

theorem parser_dequeue (s : State) (c : Nat) (p : Option Parser) :
    { s with parser := p }.dequeue c = { s.dequeue c with parser := p } := by
  unfold State.dequeue
  cases hm : s.maxSize with
  | none => simp
  | some m => by_cases h : m - s.buffer.length < c <;> simp [h]

theorem progressWith_none (s s' : State) (p : Parser) (v : Bytes) (h : s.progressWith p = (s', none)) :
    ∃ p', s'.parser = some p' ∧ s'.unparsed = [] ∧
      (s.enqueue v).progressWith p = (s'.enqueue v).progressWith p' := by
  unfold State.progressWith at h
  rcases hr : p.parse s.unparsed with ⟨p', c, o⟩
  rw [hr] at h
  cases o with
  | some j => simp at h
  | none =>
    obtain ⟨h1, h2⟩ := parse_append_none p p' s.unparsed v c hr
    simp at h
    subst h
    refine ⟨p', ?_, ?_, ?_⟩
    · rw [parser_dequeue]
    · unfold State.dequeue; simp only
      cases s.maxSize with
      | none => simp [h1]
      | some m => simp only; split <;> simp [h1]
    · have hu' : ((({ s with parser := some p' } : State).dequeue c).enqueue v).unparsed = v := by
        unfold State.dequeue State.enqueue; simp only
        cases s.maxSize with
        | none => simp [h1]
        | some m => simp only; split <;> simp [h1]
      have hcount := parse_count_le p' v
      have := dequeue_dequeue s s.unparsed v (p'.parse v).2.1 (some p') (some (p'.parse v).1) rfl hcount
      subst h1
      have e1 : p.parse (s.enqueue v).unparsed = _ := h2
      have e2 : p'.parse ((({ s with parser := some p' } : State).dequeue s.unparsed.length).enqueue v).unparsed
          = p'.parse v := by rw [hu']
      rw [progressWith_eq _ _ _ _ _ e1, progressWith_eq _ _ _ _ _ e2]
      exact congrArg (finish (p'.parse v).2.2) this.symm

theorem progress_enqueue_some (s s' : State) (i : Info) (v : Bytes) (h : s.progress = (s', some i)) :
    (s.enqueue v).progress = (s'.enqueue v, some i) := by
  unfold State.progress at h ⊢
  have hp : (s.enqueue v).parser = s.parser := rfl
  rw [hp]
  cases hq : s.parser with
  | some p => rw [hq] at h; exact progressWith_some _ _ _ _ _ h
  | none => rw [hq] at h; exact progressWith_some _ _ _ _ _ h

theorem progress_enqueue_none (s s' : State) (v : Bytes) (h : s.progress = (s', none)) :
    (s.enqueue v).progress = (s'.enqueue v).progress := by
  have key : ∀ (t : State) p, t.progressWith p = (s', none) → (t.enqueue v).progressWith p = (s'.enqueue v).progress := by
    intro t p ht
    obtain ⟨p', h1, _, h3⟩ := progressWith_none t s' p v ht
    rw [h3]
    unfold State.progress
    have hp : (s'.enqueue v).parser = s'.parser := rfl
    rw [hp, h1]
  unfold State.progress at h
  rw [State.progress]
  have hp : (s.enqueue v).parser = s.parser := rfl
  rw [hp]
  cases hq : s.parser with
  | some p => rw [hq] at h; exact key _ _ h
  | none => rw [hq] at h; exact key _ _ h

/-! ### Draining -/

inductive Drains : State → List Event → State → Prop where
  | done {s s'} : s.progress = (s', none) → Drains s [] s'
  | step {s s₁ i evs s'} : s.progress = (s₁, some i) → Drains s₁ evs s' → Drains s (s₁.observe i :: evs) s'

theorem Drains.unique {s e₁ s₁ e₂ s₂} (h₁ : Drains s e₁ s₁) (h₂ : Drains s e₂ s₂) : e₁ = e₂ ∧ s₁ = s₂ := by
  induction h₁ generalizing e₂ s₂ with
  | done h =>
    cases h₂ with
    | done h' => rw [h] at h'; simp_all
    | step h' _ => rw [h] at h'; simp at h'
  | step h _ ih =>
    cases h₂ with
    | done h' => rw [h] at h'; simp at h'
    | step h' hd =>
      rw [h] at h'
      simp at h'
      obtain ⟨rfl, rfl⟩ := h'
      obtain ⟨rfl, rfl⟩ := ih hd
      simp

def rank : Option Parser → Nat
  | some (.literal _) => 1
  | _ => 0

theorem dequeue_unparsed (s : State) (c : Nat) : (s.dequeue c).unparsed = s.unparsed.drop c := by
  unfold State.dequeue
  cases s.maxSize with
  | none => simp
  | some m => simp only; split <;> simp

theorem progressWith_rank (s s' : State) (p : Parser) (i : Info) (h : s.progressWith p = (s', some i)) :
    2 * s'.unparsed.length + rank s'.parser < 2 * s.unparsed.length + rank (some p) := by
  unfold State.progressWith at h
  rcases hr : p.parse s.unparsed with ⟨p', c, o⟩
  rw [hr] at h
  cases o with
  | none => simp at h
  | some j =>
    simp at h
    obtain ⟨rfl, rfl⟩ := h
    have hc := (parse_append_some _ _ _ [] _ _ hr).2
    simp only [dequeue_unparsed, List.length_drop]
    cases p with
    | line p =>
      rcases lf_cases s.unparsed with h' | ⟨pre, rest, hu, h'⟩
      · simp [Parser.parse, parse_noLF p _ h'] at hr
      · simp only [Parser.parse, hu, parse_LF p pre rest h'] at hr
        simp at hr
        have : rank (nextParser j) ≤ 1 := by unfold rank; split <;> omega
        have : rank (some (.line p)) = 0 := rfl
        omega
    | literal p =>
      simp only [Parser.parse, LiteralParser.parse] at hr
      split at hr
      · simp at hr
      · simp at hr
        obtain ⟨_, _, rfl⟩ := hr
        simp [rank, nextParser]
        omega

theorem progress_rank (s s' : State) (i : Info) (h : s.progress = (s', some i)) :
    2 * s'.unparsed.length + rank s'.parser < 2 * s.unparsed.length + rank s.parser := by
  unfold State.progress at h
  cases hq : s.parser with
  | some p => rw [hq] at h; exact progressWith_rank _ _ _ _ h
  | none => rw [hq] at h; exact progressWith_rank _ _ _ _ h

theorem Drains.total (s : State) : ∃ evs s', Drains s evs s' := by
  generalize hn : 2 * s.unparsed.length + rank s.parser = n
  induction n using Nat.strongRecOn generalizing s with
  | ind n ih =>
    rcases hp : s.progress with ⟨s₁, o⟩
    cases o with
    | none => exact ⟨[], s₁, .done hp⟩
    | some i =>
      have := progress_rank _ _ _ hp
      obtain ⟨evs, s', h⟩ := ih _ (by omega) s₁ rfl
      exact ⟨_, s', .step hp h⟩

theorem enqueue_enqueue (s : State) (a b : Bytes) : (s.enqueue a).enqueue b = s.enqueue (a ++ b) := by
  simp [State.enqueue]

theorem drains_run (ops : List Op) (hp : Plain ops) (s sf s' : State) (evs evs₂ : List Event)
    (hr : s.run ops = (sf, evs)) (hd : Drains sf evs₂ s') :
    Drains (s.enqueue (enqueued ops)) (evs ++ evs₂) s' := by
  induction ops generalizing s evs with
  | nil =>
    simp [State.run] at hr
    obtain ⟨rfl, rfl⟩ := hr
    simpa [enqueued, State.enqueue] using hd
  | cons op ops ih =>
    have hp' : Plain ops := fun o ho => hp o (by simp [ho])
    rcases hp op (by simp) with ⟨bs, rfl⟩ | rfl
    · simp [State.run, State.exec] at hr
      have := ih hp' (s.enqueue bs) evs (by rw [← hr.1, ← hr.2])
      rw [enqueue_enqueue] at this
      simpa [enqueued] using this
    · simp only [enqueued]
      rcases hpr : s.progress with ⟨s₁, o⟩
      cases o with
      | some i =>
        simp [State.run, State.exec, hpr] at hr
        have h1 := ih hp' s₁ (s₁.run ops).2 (by rw [← hr.1])
        rw [← hr.2]
        exact .step (s₁ := s₁.enqueue (enqueued ops)) (progress_enqueue_some _ _ _ _ hpr) h1
      | none =>
        simp [State.run, State.exec, hpr] at hr
        have h1 := ih hp' s₁ evs (by rw [← hr.1, ← hr.2])
        have h2 := progress_enqueue_none _ _ (enqueued ops) hpr
        revert h1
        generalize evs ++ evs₂ = all
        intro h1
        cases h1 with
        | done h => exact .done (by rw [h2, h])
        | step h h' => exact .step (by rw [h2, h]) h'

/-! ### The history invariant -/

/-- Complete (line, literal) pairs. -/
inductive Pairs : Bytes → List Info → Prop where
  | nil : Pairs [] []
  | snoc {b is l a e lit} : Pairs b is → IsLine l → Announces l a → EndsWith l e → lit.length = a.length →
      Pairs (b ++ (l ++ lit))
        (is ++ [.line b.length (b.length + l.length) (some a) e,
          .literal (b.length + l.length) (b.length + l.length + lit.length)])

theorem Pairs.message {b is} (h : Pairs b is) {r rs} (hm : Message b.length r rs) : Message 0 (b ++ r) (is ++ rs) := by
  induction h generalizing r rs with
  | nil => simpa using hm
  | snoc hp h1 h2 h3 h4 ih =>
    have := ih (Message.more h1 h2 h3 h4 (by simpa [Nat.add_assoc] using hm))
    simpa using this

theorem Pairs.unfinished {b is} (h : Pairs b is) {r rs} (hm : Unfinished b.length r rs) :
    Unfinished 0 (b ++ r) (is ++ rs) := by
  induction h generalizing r rs with
  | nil => simpa using hm
  | snoc hp h1 h2 h3 h4 ih =>
    have := ih (Unfinished.more h1 h2 h3 h4 (by simpa [Nat.add_assoc] using hm))
    simpa using this

/-- The parser agrees with the bytes `cur` of the current message and its complete fragments `infos`. -/
def Agrees (cur : Bytes) (infos : List Info) : Option Parser → Prop
  | none => Message 0 cur infos
  | some (.line p) => ∃ b l, cur = b ++ l ∧ Pairs b infos ∧ (10 : UInt8) ∉ l ∧ p.start = b.length ∧
      p.stop = b.length + l.length ∧ p.latest = scan .other l
  | some (.literal p) => ∃ b is l a e lit, cur = b ++ (l ++ lit) ∧ Pairs b is ∧ IsLine l ∧ Announces l a ∧ EndsWith l e ∧
      infos = is ++ [.line b.length (b.length + l.length) (some a) e] ∧
      p.start = b.length + l.length ∧ p.stop = b.length + l.length + lit.length ∧ lit.length + p.remaining = a.length

def limit : Option Nat → Bytes → Bytes
  | none, bs => bs
  | some m, bs => bs.take m

/-- Local invariant of a state: `cur` are the true bytes of the current message parsed so far. -/
structure Inv (s : State) (cur : Bytes) (infos : List Info) : Prop where
  agrees : Agrees cur infos s.parser
  buffer : s.buffer = limit s.maxSize cur
  exceeded : s.exceeded = decide (∃ m, s.maxSize = some m ∧ m < cur.length)

theorem agrees_step (cur : Bytes) (infos : List Info) (p p' : Parser) (u : Bytes) (c : Nat) (o : Option Info)
    (h : Agrees cur infos (some p)) (hr : p.parse u = (p', c, o)) :
    match o with
    | none => Agrees (cur ++ u.take c) infos (some p')
    | some i => Agrees (cur ++ u.take c) (infos ++ [i]) (nextParser i) := by
  cases p with
  | line p =>
    obtain ⟨b, l, rfl, hP, hl, h1, h2, h3⟩ := h
    rcases lf_cases u with h' | ⟨pre, rest, rfl, h'⟩
    · simp only [Parser.parse, parse_noLF p u h'] at hr
      simp at hr
      obtain ⟨rfl, rfl, rfl⟩ := hr
      refine ⟨b, l ++ u, by simp, hP, by simp [hl, h'], h1, ?_, ?_⟩
      · simp [h2, Nat.add_assoc]
      · simp [scan_append, h3]
    · simp only [Parser.parse, parse_LF p pre rest h'] at hr
      simp at hr
      obtain ⟨rfl, rfl, rfl⟩ := hr
      have hbody : (10 : UInt8) ∉ l ++ pre := by simp [hl, h']
      have hT : (pre ++ 10 :: rest).take (pre.length + 1) = pre ++ b!"\n" := by
        simp [List.take_append, List.take_of_length_le]
      have hline : IsLine (l ++ pre ++ b!"\n") := ⟨l ++ pre, rfl, hbody⟩
      have hE := endsWith_body (l ++ pre)
      have hcur : b ++ l ++ (pre ++ 10 :: rest).take (pre.length + 1) = b ++ (l ++ pre ++ b!"\n") := by
        rw [hT]; simp
      have hsc : scan p.latest pre = scan .other (l ++ pre) := by rw [scan_append, h3]
      have hstop : p.stop + pre.length + 1 = b.length + (l ++ pre ++ b!"\n").length := by
        simp [h2]; omega
      show Agrees (b ++ l ++ (pre ++ 10 :: rest).take (pre.length + 1)) _ _
      rw [hcur, hsc, hstop, h1]
      cases ha : annOf (scan .other (l ++ pre)) with
      | none =>
        simp only [nextParser]
        apply Pairs.message hP
        apply Message.last hline _ hE
        intro a hA
        rw [announces_body] at hA
        rw [ha] at hA; simp at hA
      | some a =>
        simp only [nextParser]
        refine ⟨b, infos, l ++ pre ++ b!"\n", a, _, [], by simp, hP, hline, ?_, hE, rfl, ?_, ?_, ?_⟩
        · rw [announces_body, ha]
        · simp [LiteralParser.new]
        · simp [LiteralParser.new]
        · simp [LiteralParser.new]
  | literal p =>
    obtain ⟨b, is, l, a, e, lit, rfl, hP, hl, hA, hE, rfl, h1, h2, h3⟩ := h
    simp only [Parser.parse, LiteralParser.parse] at hr
    split at hr
    · simp at hr
      obtain ⟨rfl, rfl, rfl⟩ := hr
      refine ⟨b, is, l, a, e, lit ++ u, by simp, hP, hl, hA, hE, rfl, h1, ?_, ?_⟩
      · simp [h2]; omega
      · simp; omega
    · rename_i hlen
      simp at hr
      obtain ⟨rfl, rfl, rfl⟩ := hr
      simp only [nextParser]
      have hlen' : (lit ++ u.take p.remaining).length = a.length := by simp; omega
      have := Pairs.snoc hP hl hA hE hlen'
      refine ⟨b ++ (l ++ (lit ++ u.take p.remaining)), [], by simp, ?_, by simp, ?_, ?_, rfl⟩
      · have e1 : p.stop + p.remaining = b.length + l.length + (lit ++ u.take p.remaining).length := by
          rw [hlen', h2]; omega
        rw [h1, e1]
        simpa using this
      · simp [LineParser.new]; omega
      · simp [LineParser.new]; omega

theorem limit_append (m : Option Nat) (cur x : Bytes) :
    limit m (cur ++ x) = limit m cur ++ (match m with | none => x | some m => x.take (m - (limit (some m) cur).length)) := by
  cases m with
  | none => simp [limit]
  | some m =>
    simp [limit, List.take_append]
    by_cases h : m ≤ cur.length
    · have : m - cur.length = 0 := by omega
      have h2 : m - min m cur.length = 0 := by omega
      simp [this, h2]
    · have : min m cur.length = cur.length := by omega
      simp [this]

theorem dequeue_inv (s : State) (cur : Bytes) (c : Nat) (hc : c ≤ s.unparsed.length)
    (hb : s.buffer = limit s.maxSize cur)
    (he : s.exceeded = decide (∃ m, s.maxSize = some m ∧ m < cur.length)) :
    (s.dequeue c).buffer = limit s.maxSize (cur ++ s.unparsed.take c) ∧
    (s.dequeue c).exceeded = decide (∃ m, s.maxSize = some m ∧ m < (cur ++ s.unparsed.take c).length) ∧
    (s.dequeue c).maxSize = s.maxSize := by
  have hc' : min c s.unparsed.length = c := by omega
  cases hm : s.maxSize with
  | none =>
    rw [hm] at hb he
    simp [State.dequeue, hm, hb, he, limit]
  | some m =>
    rw [hm] at hb he
    rw [limit_append]
    simp at he
    have hl : s.buffer.length = min m cur.length := by rw [hb]; simp [limit]
    by_cases h : m - s.buffer.length < c
    · simp [State.dequeue, hm, h]
      refine ⟨by rw [← hb], ?_⟩
      omega
    · simp [State.dequeue, hm, h]
      refine ⟨?_, ?_⟩
      · rw [← hb, List.take_take]
        congr 2
        omega
      · rw [he]
        simp
        omega

theorem progressWith_inv (s : State) (p : Parser) (cur : Bytes) (infos : List Info)
    (ha : Agrees cur infos (some p)) (hb : s.buffer = limit s.maxSize cur)
    (he : s.exceeded = decide (∃ m, s.maxSize = some m ∧ m < cur.length)) :
    let r := s.progressWith p
    ∃ x, s.unparsed = x ++ r.1.unparsed ∧ Inv r.1 (cur ++ x) (infos ++ r.2.toList) ∧ r.1.maxSize = s.maxSize ∧
      r.1.poisoned = s.poisoned := by
  intro r
  rcases hr : p.parse s.unparsed with ⟨p', c, o⟩
  have hc : c ≤ s.unparsed.length := by have := parse_count_le p s.unparsed; rw [hr] at this; simpa using this
  have hd := dequeue_inv ({ s with parser := some p' }) cur c hc hb he
  have hstep := agrees_step cur infos p p' s.unparsed c o ha hr
  have hpois : (({ s with parser := some p' } : State).dequeue c).poisoned = s.poisoned := by
    unfold State.dequeue
    cases hm : s.maxSize with
    | none => simp
    | some m => simp only; split <;> simp
  refine ⟨s.unparsed.take c, ?_, ?_, ?_, ?_⟩
  · have : r.1.unparsed = s.unparsed.drop c := by
      simp only [r, State.progressWith, hr]
      cases o <;> simp [dequeue_unparsed]
    rw [this]; simp
  · cases o with
    | none =>
      simp only [r, State.progressWith, hr]
      refine ⟨?_, ?_, ?_⟩
      · simp [parser_dequeue]; exact hstep
      · rw [hd.1]; simp [hd.2.2]
      · rw [hd.2.1]; simp [hd.2.2]
    | some i =>
      simp only [r, State.progressWith, hr]
      refine ⟨?_, ?_, ?_⟩
      · exact hstep
      · simp only [hd.1, hd.2.2]
      · simp only [hd.2.1, hd.2.2]
  · simp only [r, State.progressWith, hr]
    cases o <;> simp [hd.2.2]
  · simp only [r, State.progressWith, hr]
    cases o <;> simp [hpois]

theorem inv_start (s : State) : Inv s.startMessage [] [] := by
  refine ⟨?_, ?_, ?_⟩
  · exact ⟨[], [], by simp, .nil, by simp, rfl, rfl, rfl⟩
  · cases h : s.maxSize <;> simp [State.startMessage, limit, h]
  · simp [State.startMessage]

theorem inv_init (m : Option Nat) : Inv (State.init m) [] [] := by
  refine ⟨?_, ?_, ?_⟩
  · exact ⟨[], [], by simp, .nil, by simp, rfl, rfl, rfl⟩
  · cases m <;> simp [State.init, limit]
  · simp [State.init]

theorem agrees_unfinished {cur infos p} (h : Agrees cur infos (some p)) : Unfinished 0 cur infos := by
  match p, h with
  | .line p, h =>
    obtain ⟨b, l, rfl, hP, hl, h1, h2, h3⟩ := h
    simpa using hP.unfinished (.inLine hl)
  | .literal p, h =>
    obtain ⟨b, is, l, a, e, lit, rfl, hP, hl, hA, hE, rfl, h1, h2, h3⟩ := h
    exact hP.unfinished (.inLiteral hl hA hE (by omega))

theorem progress_inv (s : State) (cur : Bytes) (infos : List Info) (h : Inv s cur infos) :
    ∃ x, s.unparsed = x ++ s.progress.1.unparsed ∧
      Inv s.progress.1 ((if s.complete then [] else cur) ++ x)
        ((if s.complete then [] else infos) ++ s.progress.2.toList) ∧
      s.progress.1.maxSize = s.maxSize ∧
      s.progress.1.poisoned = if s.complete then false else s.poisoned := by
  unfold State.progress State.complete
  cases hp : s.parser with
  | some p =>
    have := h.agrees
    rw [hp] at this
    simpa using progressWith_inv s p cur infos this h.buffer h.exceeded
  | none =>
    have hs := inv_start s
    have := progressWith_inv s.startMessage (.line (.new 0)) [] [] hs.agrees hs.buffer hs.exceeded
    simpa [State.startMessage] using this

end Imap.Frag
