import Verif.SessionSpec
import Verif.Props.Handshake
/-
Lemmas for C50: the plan of the client against the server.
-/
set_option maxRecDepth 10000

namespace Imap.Session

open Frag

variable [Quirks] {lim : Limits}

/-! ### Steps of the server and more bytes -/

omit [Quirks] in
theorem enqueue_enqueue' (s : Server) (a b : Bytes) : (s.enqueue a).enqueue b = s.enqueue (a ++ b) := by
  simp [Server.enqueue, enqueue_enqueue]

omit [Quirks] in
theorem enqueue_nil (s : Server) : s.enqueue [] = s := by simp [Server.enqueue, State.enqueue]

theorem complete_enqueue (s : Server) (b : Bytes) : (s.enqueue b).complete = (s.complete.1.enqueue b, s.complete.2) := by
  obtain ⟨f, ph, l⟩ := s
  have e : ∀ {ε μ : Type} (d : Bytes → Except ε (Bytes × μ)), (f.enqueue b).decodeMessage d = f.decodeMessage d := fun _ => rfl
  cases ph with
  | command =>
    simp only [Server.complete, Server.enqueue, e]
    cases f.decodeMessage Codec.command.decoder with
    | ok c =>
      simp only
      cases Command.body c <;> rfl
    | _ => rfl
  | authenticate t =>
    simp only [Server.complete, Server.enqueue, e]
    cases f.decodeMessage Codec.authenticateData.decoder <;> rfl
  | idle =>
    simp only [Server.complete, Server.enqueue, e]
    cases f.decodeMessage Codec.idleDone.decoder <;> rfl

theorem react_enqueue (s : Server) (b : Bytes) (i : Info) :
    (s.enqueue b).react lim i = ((s.react lim i).1.enqueue b, (s.react lim i).2) := by
  have e1 : (s.enqueue b).frag.decodeTag = s.frag.decodeTag := rfl
  have e2 : (s.enqueue b).frag.complete = s.frag.complete := rfl
  have other : (if (s.enqueue b).frag.complete then (s.enqueue b).complete else (s.enqueue b, [])) =
      ((if s.frag.complete then s.complete else (s, [])).1.enqueue b, (if s.frag.complete then s.complete else (s, [])).2) := by
    rw [e2]
    split
    · exact complete_enqueue s b
    · rfl
  unfold Server.react
  split
  · split
    · rfl
    · rw [e1]
      cases s.frag.decodeTag <;> rfl
  · exact other

/-- One iteration of the loop of the server that gets a fragment. -/
def Reacts (lim : Limits) (s s1 : Server) (rs : List Reply) : Prop :=
  ∃ f i, s.frag.progress = (f, some i) ∧ Server.react lim { s with frag := f } i = (s1, rs)

theorem Reacts.enqueue {s s1 : Server} {rs : List Reply} (h : Reacts lim s s1 rs) (b : Bytes) : Reacts lim (s.enqueue b) (s1.enqueue b) rs := by
  obtain ⟨f, i, h1, h2⟩ := h
  refine ⟨f.enqueue b, i, progress_enqueue_some _ _ _ _ h1, ?_⟩
  have := react_enqueue (lim := lim) { s with frag := f } b i
  rw [h2] at this
  exact this

theorem Reacts.unique {s s1 s2 : Server} {r1 r2 : List Reply} (h1 : Reacts lim s s1 r1) (h2 : Reacts lim s s2 r2) : s1 = s2 ∧ r1 = r2 := by
  obtain ⟨f, i, h1, h3⟩ := h1
  obtain ⟨g, j, h2, h4⟩ := h2
  rw [h1] at h2
  cases h2
  rw [h3] at h4
  cases h4
  exact ⟨rfl, rfl⟩

/-- The server reads all that it has. -/
inductive Drain (lim : Limits) : Server → List Reply → Server → Prop where
  | done {s : Server} : s.frag.progress.2 = none → Drain lim s [] s
  | step {s s1 s' : Server} {r rs : List Reply} : Reacts lim s s1 r → Drain lim s1 rs s' → Drain lim s (r ++ rs) s'

theorem Drain.of_reacts {s s1 s' : Server} {r rs : List Reply} (h : Drain lim s rs s') (h1 : Reacts lim s s1 r) :
    ∃ rs', rs = r ++ rs' ∧ Drain lim s1 rs' s' := by
  cases h with
  | done h =>
    obtain ⟨f, i, h1, -⟩ := h1
    rw [h1] at h
    simp at h
  | step h2 h =>
    obtain ⟨rfl, rfl⟩ := h1.unique h2
    exact ⟨_, rfl, h⟩

/-! ### Plans -/

/-- The plan of the client: bytes that it sends, and replies that it gets. -/
inductive Act where
  | bytes (bs : Bytes)
  | await (r : Reply)

/-- The plan fits the server: while the replies `down` are under way, the server gives each reply of the plan when it has read the bytes
before it, gives no other replies, and ends with the given log. -/
def Good (lim : Limits) (log : List LogEntry) : Server → List Reply → List Act → Prop
  | s, down, [] => down = [] ∧ ∃ s', Drain lim s [] s' ∧ s'.log = log
  | s, down, .bytes b :: as => Good lim log (s.enqueue b) down as
  | s, down, .await r :: as => ∃ rs s', Drain lim s rs s' ∧ down ++ rs = [r] ∧ Good lim log s' [] as

variable {log : List LogEntry}

theorem good_reacts {s s1 : Server} {rs down : List Reply} (as : List Act) (h : Reacts lim s s1 rs) :
    Good lim log s down as ↔ Good lim log s1 (down ++ rs) as := by
  induction as generalizing s s1 with
  | nil =>
    constructor
    · rintro ⟨rfl, s', hd, hl⟩
      obtain ⟨rs', e, hd'⟩ := hd.of_reacts h
      simp only [List.nil_eq, List.append_eq_nil_iff] at e
      obtain ⟨rfl, rfl⟩ := e
      exact ⟨rfl, s', hd', hl⟩
    · rintro ⟨e, s', hd, hl⟩
      simp only [List.append_eq_nil_iff] at e
      obtain ⟨rfl, rfl⟩ := e
      exact ⟨rfl, s', .step h hd, hl⟩
  | cons a as ih =>
    cases a with
    | bytes b => exact ih (h.enqueue b)
    | await r =>
      constructor
      · rintro ⟨rs', s', hd, e, hg⟩
        obtain ⟨rs'', rfl, hd'⟩ := hd.of_reacts h
        exact ⟨rs'', s', hd', by simpa using e, hg⟩
      · rintro ⟨rs', s', hd, e, hg⟩
        exact ⟨rs ++ rs', s', .step h hd, by simpa using e, hg⟩

/-- Servers that do the same from now on. -/
structure Sim (s t : Server) : Prop where
  phase : s.phase = t.phase
  log : s.log = t.log
  progress : ∀ v, (s.frag.enqueue v).progress = (t.frag.enqueue v).progress

omit [Quirks] in
theorem Sim.symm {s t : Server} (h : Sim s t) : Sim t s := ⟨h.1.symm, h.2.symm, fun v => (h.3 v).symm⟩

omit [Quirks] in
theorem Sim.now {s t : Server} (h : Sim s t) : s.frag.progress = t.frag.progress := by
  have := h.progress []
  simpa [State.enqueue] using this

theorem Sim.reacts {s t s1 : Server} {rs : List Reply} (h : Sim s t) (hr : Reacts lim s s1 rs) : Reacts lim t s1 rs := by
  obtain ⟨f, i, h1, h2⟩ := hr
  refine ⟨f, i, by rw [← h.now]; exact h1, ?_⟩
  rw [← h2, h.phase, h.log]

theorem Sim.drain {s t s' : Server} {rs : List Reply} (h : Sim s t) (hd : Drain lim s rs s') : ∃ t', Drain lim t rs t' ∧ Sim s' t' := by
  cases hd with
  | done h' => exact ⟨t, .done (by rw [← h.now]; exact h'), h⟩
  | step hr hd => exact ⟨s', .step (h.reacts hr) hd, ⟨rfl, rfl, fun _ => rfl⟩⟩

theorem Sim.good {s t : Server} {down : List Reply} {as : List Act} (h : Sim s t) (hg : Good lim log s down as) : Good lim log t down as := by
  induction as generalizing s t down with
  | nil =>
    obtain ⟨e, s', hd, hl⟩ := hg
    obtain ⟨t', hd', hs⟩ := h.drain hd
    exact ⟨e, t', hd', by rw [← hs.log]; exact hl⟩
  | cons a as ih =>
    cases a with
    | bytes b =>
      exact ih (s := s.enqueue b) (t := t.enqueue b) ⟨h.phase, h.log, fun v => by
        have := h.progress (b ++ v)
        simpa [Server.enqueue, enqueue_enqueue] using this⟩ hg
    | await r =>
      obtain ⟨rs, s', hd, e, hg⟩ := hg
      obtain ⟨t', hd', hs⟩ := h.drain hd
      exact ⟨rs, t', hd', e, ih hs hg⟩

omit [Quirks] in
/-- A call of `progress` that returns nothing changes nothing. -/
theorem sim_none {s : Server} {f : Frag.State} (h : s.frag.progress = (f, none)) : Sim s { s with frag := f } :=
  ⟨rfl, rfl, fun v => progress_enqueue_none _ _ v h⟩

/-! ### The plan of a client -/

/-- The plan for the rest of a command, given the plan after it was accepted and after it was rejected. -/
def planFragments (lim : Limits) (tag : Bytes) (accepted rejected : List Act) : List Fragment → List Act
  | [] => accepted
  | .line d :: fs => .bytes d :: planFragments lim tag accepted rejected fs
  | .literal d .nonSync :: fs => .bytes d :: planFragments lim tag accepted rejected fs
  | .literal d .sync :: fs =>
    if d.length ≤ lim.literal then .await .continue_ :: .bytes d :: planFragments lim tag accepted rejected fs
    else .await (.bad tag) :: rejected

/-- The plan after a command that was accepted. -/
def planAfter (t : Turn) (next : List Act) : List Act :=
  match t.command.body with
  | .authenticate _ _ => .await .continue_ :: .bytes (dump (Codec.authenticateData.encode t.answer)) :: .await (.ok t.command.tag) :: next
  | .idle => .await .continue_ :: .bytes (dump (Codec.idleDone.encode ())) :: next
  | _ => next

/-- The plan for turns. -/
def planTurns (lim : Limits) : List Turn → List Act
  | [] => []
  | t :: ts => planFragments lim t.command.tag (planAfter t (planTurns lim ts)) (planTurns lim ts) (Codec.command.encode t.command)

/-- The plan of a client. -/
def plan (lim : Limits) : Client → List Act
  | .ready ts => planTurns lim ts
  | .sending t fs ts => planFragments lim t.command.tag (planAfter t (planTurns lim ts)) (planTurns lim ts) fs
  | .answered t ts => .await (.ok t.command.tag) :: planTurns lim ts

theorem good_send {c c' : Client} {bs : Bytes} {s : Server} {down : List Reply} (h : c.send = some (bs, c'))
    (hg : Good lim log s down (plan lim c)) : Good lim log (s.enqueue bs) down (plan lim c') := by
  unfold Client.send at h
  split at h
  · cases h; rw [enqueue_nil]; exact hg
  · cases h; exact hg
  · cases h; exact hg
  · next t ts =>
    split at h
    · simp at h
    · simp at h
    · next h1 h2 =>
      cases h
      rw [enqueue_nil]
      simpa only [plan, planFragments, planAfter] using hg
  · simp at h

theorem Drain.good {s s' : Server} {rs down : List Reply} {as : List Act} (hd : Drain lim s rs s') (hg : Good lim log s' (down ++ rs) as) :
    Good lim log s down as := by
  induction hd generalizing down with
  | done _ => simpa using hg
  | step hr hd ih =>
    rw [good_reacts _ hr]
    exact ih (by simpa using hg)

theorem good_receive {c c' : Client} {bs : Bytes} {s : Server} {r : Reply} {down : List Reply} (h : c.receive r = some (bs, c'))
    (hg : Good lim log s (r :: down) (plan lim c)) : Good lim log (s.enqueue bs) down (plan lim c') := by
  have key : ∀ {r' : Reply} {as : List Act}, Good lim log s (r :: down) (.await r' :: as) → r' = r ∧ down = [] ∧ Good lim log s [] as := by
    rintro r' as ⟨rs, s', hd, e, hg1⟩
    simp only [List.cons_append, List.cons.injEq, List.append_eq_nil_iff] at e
    obtain ⟨rfl, rfl, rfl⟩ := e
    exact ⟨rfl, rfl, hd.good hg1⟩
  unfold Client.receive at h
  split at h
  · cases h
    simp only [plan, planFragments] at hg ⊢
    split at hg
    · obtain ⟨-, rfl, hg1⟩ := key hg
      exact hg1
    · exact absurd (key hg).1 (by simp)
  · split at h
    · cases h
      rw [enqueue_nil]
      simp only [plan, planFragments] at hg ⊢
      split at hg
      · exact absurd (key hg).1 (by simp)
      · obtain ⟨-, rfl, hg1⟩ := key hg
        exact hg1
    · simp at h
  · split at h
    · next e =>
      cases h
      simp only [plan, planFragments, planAfter, e] at hg ⊢
      obtain ⟨-, rfl, hg1⟩ := key hg
      exact hg1
    · next e =>
      cases h
      simp only [plan, planFragments, planAfter, e] at hg ⊢
      obtain ⟨-, rfl, hg1⟩ := key hg
      exact hg1
    · simp at h
  · split at h
    · cases h
      rw [enqueue_nil]
      obtain ⟨-, rfl, hg1⟩ := key hg
      exact hg1
    · simp at h
  · simp at h

/-- The invariant of a session: the plan of the client fits the server when it has read what is under way. -/
def Inv (lim : Limits) (log : List LogEntry) (x : Session) : Prop := Good lim log (x.server.enqueue x.up) x.down (plan lim x.client)

theorem inv_step {x y : Session} (h : Step lim x y) (hi : Inv lim log x) : Inv lim log y := by
  cases h with
  | send h =>
    have := good_send h hi
    rwa [enqueue_enqueue'] at this
  | receive h =>
    have := good_receive h hi
    rwa [enqueue_enqueue'] at this
  | @read c chunk up down s f h _ =>
    have hs := sim_none h
    have : Sim (s.enqueue (chunk ++ up)) ((({ s with frag := f } : Server).enqueue chunk).enqueue up) := by
      rw [enqueue_enqueue']
      exact ⟨rfl, rfl, fun v => by
        have := hs.progress ((chunk ++ up) ++ v)
        simpa only [Server.enqueue, enqueue_enqueue] using this⟩
    exact this.good hi
  | @react c up down s f i h =>
    have hr : Reacts lim s (Server.react lim { s with frag := f } i).1 (Server.react lim { s with frag := f } i).2 := ⟨f, i, h, rfl⟩
    exact (good_reacts _ (hr.enqueue up)).1 hi

theorem inv_run {n : Nat} {x y : Session} (h : Run lim n x y) (hi : Inv lim log x) : Inv lim log y := by
  induction h with
  | refl => exact hi
  | tail _ hs ih => exact inv_step hs (ih hi)

theorem reacts_log {s s1 : Server} {rs : List Reply} (h : Reacts lim s s1 rs) : s.log <+: s1.log := by
  obtain ⟨f, i, h1, h2⟩ := h
  have hc : ∀ t : Server, t.log <+: t.complete.1.log := by
    intro t
    unfold Server.complete
    split
    · split
      · split <;> simp
      · simp
    · split <;> simp
    · split <;> simp
  have : ∀ t : Server, t.log <+: (t.react lim i).1.log := by
    intro t
    unfold Server.react
    split
    · split
      · simp
      · split <;> simp
    · split
      · exact hc t
      · simp
  have := this { s with frag := f }
  rw [h2] at this
  exact this

theorem drain_log {s s' : Server} {rs : List Reply} (h : Drain lim s rs s') : s.log <+: s'.log := by
  induction h with
  | done _ => simp
  | step hr _ ih => exact (reacts_log hr).trans ih

theorem good_log {s : Server} {down : List Reply} {as : List Act} (h : Good lim log s down as) : s.log <+: log := by
  induction as generalizing s down with
  | nil =>
    obtain ⟨-, s', hd, rfl⟩ := h
    exact drain_log hd
  | cons a as ih =>
    cases a with
    | bytes b => exact ih (s := s.enqueue b) h
    | await r =>
      obtain ⟨rs, s', hd, -, hg⟩ := h
      exact (drain_log hd).trans (ih hg)

/-- Without deadlock: if the client waits for a reply, then the reply is under way, or the server has something to do, or bytes are under way. -/
theorem inv_live {x : Session} (hi : Inv lim log x) : (∃ y, Step lim x y) ∨ Finished x ∧ x.server.log = log := by
  obtain ⟨c, up, down, s⟩ := x
  rcases hp : s.frag.progress with ⟨f, _ | i⟩
  · rcases up with _ | ⟨b, up⟩
    · have hi : Good lim log s down (plan lim c) := by
        have : Good lim log (s.enqueue []) down (plan lim c) := hi
        rwa [enqueue_nil] at this
      rcases hs : c.send with _ | ⟨bs, c'⟩
      · have wait : ∀ {r : Reply} {as : List Act}, plan lim c = .await r :: as → down = [r] := by
          intro r as e
          rw [e] at hi
          obtain ⟨rs, s', hd, e, -⟩ := hi
          cases hd with
          | done _ => simpa using e
          | step hr _ =>
            obtain ⟨g, j, h1, -⟩ := hr
            rw [h1] at hp
            simp at hp
        have go : ∀ {r : Reply} {as : List Act} {bs : Bytes} {c' : Client}, plan lim c = .await r :: as → c.receive r = some (bs, c') →
            ∃ y, Step lim ⟨c, [], down, s⟩ y := by
          intro r as bs c' e hr
          rw [wait e]
          exact ⟨_, .receive hr⟩
        cases c with
        | ready ts =>
          cases ts with
          | nil =>
            obtain ⟨rfl, s', hd, hl⟩ := hi
            refine .inr ⟨⟨rfl, rfl, rfl, by rw [hp]⟩, ?_⟩
            generalize hn : ([] : List Reply) = rs at hd
            cases hd with
            | done _ => exact hl
            | step hr _ =>
              obtain ⟨g, j, h1, -⟩ := hr
              rw [h1] at hp
              simp at hp
          | cons t ts => simp [Client.send] at hs
        | sending t fs ts =>
          left
          cases fs with
          | nil =>
            simp only [Client.send] at hs
            split at hs
            · next e =>
              exact go (r := .continue_) (by simp only [plan, planFragments, planAfter, e]; rfl) (by simp only [Client.receive, e]; rfl)
            · next e =>
              exact go (r := .continue_) (by simp only [plan, planFragments, planAfter, e]; rfl) (by simp only [Client.receive, e]; rfl)
            · simp at hs
          | cons g fs =>
            cases g with
            | line d => simp [Client.send] at hs
            | literal d m =>
              cases m with
              | nonSync => simp [Client.send] at hs
              | sync =>
                by_cases hl : d.length ≤ lim.literal
                · exact go (r := .continue_) (by simp only [plan, planFragments, if_pos hl]; rfl) rfl
                · exact go (r := .bad t.command.tag) (by simp only [plan, planFragments, if_neg hl]; rfl) (by simp only [Client.receive, if_true]; rfl)
        | answered t ts =>
          left
          exact go (r := .ok t.command.tag) rfl (by simp only [Client.receive, if_true]; rfl)
      · exact .inl ⟨_, .send hs⟩
    · exact .inl ⟨_, .read (chunk := [b]) (up := up) hp (by simp)⟩
  · exact .inl ⟨_, .react hp⟩

/-! ### Runs are finite -/

/-- The work to send fragments. -/
def workFragments : List Fragment → Nat
  | [] => 0
  | f :: fs => 1 + 3 * f.data.length + workFragments fs

/-- The work after a command was sent. -/
def workAfter (t : Turn) : Nat := 3 + 3 * (dump (Codec.authenticateData.encode t.answer)).length + 3 * (dump (Codec.idleDone.encode ())).length

/-- The work for turns. -/
def workTurns : List Turn → Nat
  | [] => 0
  | t :: ts => 1 + workFragments (Codec.command.encode t.command) + workAfter t + workTurns ts

/-- The work of a client. -/
def workClient : Client → Nat
  | .ready ts => workTurns ts
  | .sending t fs ts => workFragments fs + workAfter t + workTurns ts
  | .answered _ ts => 1 + workTurns ts

/-- The work that is left in a session. -/
def work (x : Session) : Nat :=
  workClient x.client + 3 * x.up.length + (2 * x.server.frag.unparsed.length + rank x.server.frag.parser)

omit [Quirks] in
theorem progress_none_rank {s f : Frag.State} (h : s.progress = (f, none)) :
    2 * f.unparsed.length + rank f.parser ≤ 2 * s.unparsed.length + rank s.parser := by
  have key : ∀ (t : Frag.State) (p : Parser), t.progressWith p = (f, none) →
      2 * f.unparsed.length + rank f.parser ≤ 2 * t.unparsed.length + rank (some p) := by
    intro t p h
    unfold State.progressWith at h
    rcases hr : p.parse t.unparsed with ⟨p', c, o⟩
    rw [hr] at h
    cases o with
    | some j => simp at h
    | none =>
      simp only [Prod.mk.injEq, and_true] at h
      rw [← h, dequeue_unparsed, dequeue_parser]
      have : rank (some p') = rank (some p) := by
        cases p <;> (simp only [Parser.parse, Prod.mk.injEq] at hr; rw [← hr.1]; rfl)
      simp only [List.length_drop, this]
      omega
  unfold State.progress at h
  cases hq : s.parser with
  | some p => rw [hq] at h; exact key _ _ h
  | none => rw [hq] at h; exact key _ _ h

theorem work_send {c c' : Client} {bs : Bytes} (h : c.send = some (bs, c')) : workClient c' + 3 * bs.length < workClient c := by
  unfold Client.send at h
  split at h
  · cases h
    simp only [workClient, workTurns, List.length_nil]
    omega
  · cases h
    simp only [workClient, workFragments, Fragment.data]
    omega
  · cases h
    simp only [workClient, workFragments, Fragment.data]
    omega
  · split at h
    · simp at h
    · simp at h
    · cases h
      simp only [workClient, workFragments, workAfter, List.length_nil]
      omega
  · simp at h

theorem work_receive {c c' : Client} {r : Reply} {bs : Bytes} (h : c.receive r = some (bs, c')) :
    workClient c' + 3 * bs.length < workClient c := by
  unfold Client.receive at h
  split at h
  · cases h
    simp only [workClient, workFragments, Fragment.data]
    omega
  · split at h
    · cases h
      simp only [workClient, workFragments, List.length_nil]
      omega
    · simp at h
  · split at h
    · cases h
      simp only [workClient, workFragments, workAfter]
      omega
    · cases h
      simp only [workClient, workFragments, workAfter]
      omega
    · simp at h
  · split at h
    · cases h
      simp only [workClient, List.length_nil]
      omega
    · simp at h
  · simp at h

theorem react_rank (s : Server) (i : Info) :
    2 * (s.react lim i).1.frag.unparsed.length + rank (s.react lim i).1.frag.parser ≤ 2 * s.frag.unparsed.length + rank s.frag.parser := by
  have hc : s.complete.1.frag = s.frag := by
    unfold Server.complete
    split
    · split
      · split <;> rfl
      · rfl
    · split <;> rfl
    · split <;> rfl
  unfold Server.react
  split
  · split
    · exact Nat.le_refl _
    · split
      · simp only [State.skip, State.startMessage, rank]
        omega
      · exact Nat.le_refl _
  · split
    · rw [hc]
    · exact Nat.le_refl _

theorem work_step {x y : Session} (h : Step lim x y) : work y < work x := by
  cases h with
  | send h =>
    have := work_send h
    simp only [work, List.length_append]
    omega
  | receive h =>
    have := work_receive h
    simp only [work, List.length_append]
    omega
  | @read c chunk up down s f h hne =>
    have := progress_none_rank h
    have := List.length_pos_iff.2 hne
    simp only [work, List.length_append, Server.enqueue, State.enqueue]
    omega
  | @react c up down s f i h =>
    have h1 := progress_rank _ _ _ h
    have h2 := react_rank (lim := lim) { s with frag := f } i
    simp only [work] at h2 ⊢
    omega

theorem work_run {n : Nat} {x y : Session} (h : Run lim n x y) : n + work y ≤ work x := by
  induction h with
  | refl => omega
  | tail _ hs ih =>
    have := work_step hs
    omega

/-! ### The plan fits the server -/

/-- The Fragmentizer within a message, before a line. -/
def within (lim : Limits) (buffer : Bytes) : Frag.State :=
  { State.init (some lim.message) with buffer := buffer, parser := some (.line (.new buffer.length)) }

/-- The Fragmentizer after a message. -/
def after (lim : Limits) (buffer : Bytes) : Frag.State := { State.init (some lim.message) with buffer := buffer, parser := none }

omit [Quirks] in
theorem sim_after (ph : Phase) (l : List LogEntry) (buffer : Bytes) : Sim ⟨.init (some lim.message), ph, l⟩ ⟨after lim buffer, ph, l⟩ :=
  ⟨rfl, rfl, fun _ => rfl⟩

omit [Quirks] in
theorem within_none (buffer : Bytes) : (within lim buffer).progress.2 = none := rfl

omit [Quirks] in
theorem after_none (buffer : Bytes) : (after lim buffer).progress.2 = none := rfl

omit [Quirks] in
theorem init_none : (State.init (some lim.message)).progress.2 = none := rfl

omit [Quirks] in
/-- The Fragmentizer reads a line with an announcement. -/
theorem within_announce {buf a : Bytes} {d : Bytes} {m : Mode} (ha : isUnbroken a = true) (hd : d.length < 2 ^ 32)
    (hm : buf.length + (a ++ announce d.length m).length ≤ lim.message) :
    ((within lim buf).enqueue (a ++ announce d.length m)).progress =
      ({ within lim (buf ++ (a ++ announce d.length m)) with parser := some (.literal (.new (buf ++ (a ++ announce d.length m)).length d.length)) },
        some (.line buf.length (buf.length + (a ++ announce d.length m).length) (some ⟨m, d.length⟩) .crlf)) := by
  have e1 : (a ++ (b!"{" ++ showNat d.length ++ modeBytes m ++ b!"}\r")) ++ b!"\n" = a ++ announce d.length m := by
    simp [announce_eq]
  have hbody : (10 : UInt8) ∉ a ++ (b!"{" ++ showNat d.length ++ modeBytes m ++ b!"}\r") := by
    rw [List.mem_append]
    rintro (h | h)
    · exact unbroken_not_mem ha h
    · exact announce_noLF _ _ h
  have := progress_line (s := (within lim buf).enqueue (a ++ announce d.length m))
    (body := a ++ (b!"{" ++ showNat d.length ++ modeBytes m ++ b!"}\r")) (rest := []) rfl (by rw [e1]; simp [within, State.enqueue, State.init]) hbody
    (by rw [e1]; rintro M ⟨⟩; exact hm)
  rw [e1, scan_announced hd] at this
  rw [this]
  simp [annOf, endOf, nextParser, within, State.enqueue, State.init]

omit [Quirks] in
/-- The Fragmentizer reads a literal. -/
theorem within_literal {buf d : Bytes} (hm : buf.length + d.length ≤ lim.message) :
    (({ within lim buf with parser := some (.literal (.new buf.length d.length)) } : Frag.State).enqueue d).progress =
      (within lim (buf ++ d), some (.literal buf.length (buf.length + d.length))) := by
  have := progress_literal (s := ({ within lim buf with parser := some (.literal (.new buf.length d.length)) } : Frag.State).enqueue d)
    (d := d) (rest := []) rfl (by simp [within, State.enqueue, State.init]) (by rintro M ⟨⟩; exact hm)
  rw [this]
  simp [nextParser, within, State.enqueue, State.init]

omit [Quirks] in
/-- The Fragmentizer reads the last line. -/
theorem within_last {buf l : Bytes} (hl : isUnbroken l = true) (hna : annOf (scan .other (l ++ b!"\r")) = none)
    (hm : buf.length + (l ++ b!"\r\n").length ≤ lim.message) :
    ((within lim buf).enqueue (l ++ b!"\r\n")).progress =
      (after lim (buf ++ (l ++ b!"\r\n")), some (.line buf.length (buf.length + (l ++ b!"\r\n").length) none .crlf)) := by
  have e1 : (l ++ b!"\r") ++ b!"\n" = l ++ b!"\r\n" := by simp
  have := progress_line (s := (within lim buf).enqueue (l ++ b!"\r\n"))
    (body := l ++ b!"\r") (rest := []) rfl (by rw [e1]; simp [within, State.enqueue, State.init]) (by simp [unbroken_not_mem hl])
    (by rw [e1]; rintro M ⟨⟩; exact hm)
  rw [e1, hna, show endOf (scan .other (l ++ b!"\r")) = .crlf by
      rw [scan_append]
      obtain ⟨a, ha⟩ := (step_cr (scan .other l) 13).2 rfl
      simp only [scan, List.foldl_cons, List.foldl_nil] at ha ⊢
      rw [ha]; rfl] at this
  rw [this]
  simp [nextParser, within, after, State.enqueue, State.init]

end Imap.Session
