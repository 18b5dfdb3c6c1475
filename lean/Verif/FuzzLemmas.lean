import Verif.Fuzz
import Verif.FragHist
/-! Lemmas about the fragments that a history of calls emits. -/
namespace Imap.Frag

/-- The bytes of all fragments that were reported. -/
def emittedBytes (evs : List Event) : Bytes := (evs.map (·.fragment)).flatten

/-- The start and the end of a fragment. -/
def Info.stop : Info → Nat
  | .line _ stop _ _ => stop
  | .literal _ stop => stop

theorem slice_append (m x : Bytes) (i : Info) (h : i.stop ≤ m.length) : slice (m ++ x) i = slice m i := by
  cases i <;> simp only [Info.stop] at h <;> simp only [slice] <;> rw [List.take_append_of_le_length h]

theorem unfinished_stop {start m infos} (h : Unfinished start m infos) : ∀ i ∈ infos, i.stop ≤ start + m.length := by
  induction h with
  | inLine _ => simp
  | inLiteral => simp [Info.stop]
  | more _ _ _ _ _ ih =>
    intro i hi
    simp only [List.mem_cons] at hi
    rcases hi with rfl | rfl | hi
    · simp [Info.stop]
    · simp [Info.stop]; omega
    · have := ih i hi; simp; omega

theorem unfinished_concat {start m infos} (h : Unfinished start m infos) (pre : Bytes) (hp : pre.length = start) :
    (infos.map (slice (pre ++ m))).flatten <+: m := by
  induction h generalizing pre with
  | inLine _ => simp
  | inLiteral =>
    rename_i start l a ending lit _ _ _ _
    have h1 := slice_mid pre l lit
    simp [slice, ← hp, h1]
  | more _ _ _ _ _ ih =>
    rename_i start l a ending lit rest infos _ _ _ _ _
    have h1 := slice_mid pre l (lit ++ rest)
    have h2 := slice_mid (pre ++ l) lit rest
    have h3 := ih (pre ++ l ++ lit) (by simp [hp]; omega)
    simp only [List.append_assoc, List.length_append] at h1 h2 h3
    simp only [List.map_cons, List.flatten_cons, slice, ← hp, List.append_assoc, h1, h2]
    simpa using h3

theorem limit_slice_length (m : Option Nat) (cur : Bytes) (i : Info) : (slice (limit m cur) i).length ≤ (slice cur i).length := by
  cases m with
  | none => simp [limit]
  | some m => cases i <;> simp [slice, limit] <;> omega

/-- The history of a run without `skip`, with the bytes that were emitted. -/
structure Emits (s : State) (stream : Bytes) (out : Bytes) (segs : List Bytes) (cur : Bytes) (infos : List Info) : Prop where
  stream_eq : stream = segs.flatten ++ cur ++ s.unparsed
  inv : Inv s cur infos
  length : out.length ≤ (segs.flatten ++ (infos.map (slice cur)).flatten).length
  eq : (∀ n, s.maxSize = some n → stream.length ≤ n) → out = segs.flatten ++ (infos.map (slice cur)).flatten

theorem emits_exec (s : State) (stream out segs cur infos) (op : Op) (hop : op ≠ .skip) (h : Emits s stream out segs cur infos) :
    ∃ segs' cur' infos', Emits (s.exec op).1 (stream ++ opBytes op) (out ++ emittedBytes (s.exec op).2) segs' cur' infos'
      ∧ (s.exec op).1.maxSize = s.maxSize := by
  cases op with
  | skip => exact absurd rfl hop
  | enqueue bs =>
    refine ⟨segs, cur, infos, ⟨?_, ?_, ?_, ?_⟩, rfl⟩
    · simp [State.exec, State.enqueue, opBytes, h.stream_eq]
    · exact ⟨h.inv.agrees, h.inv.buffer, h.inv.exceeded⟩
    · simpa [State.exec, emittedBytes] using h.length
    · intro hn
      simp only [State.exec, emittedBytes, List.map_nil, List.flatten_nil, List.append_nil]
      refine h.eq fun n e => ?_
      have := hn n e
      simp only [opBytes, List.length_append] at this
      omega
  | poison =>
    refine ⟨segs, cur, infos, ⟨?_, ?_, ?_, ?_⟩, rfl⟩
    · simp [State.exec, State.poison, opBytes, h.stream_eq]
    · exact ⟨h.inv.agrees, h.inv.buffer, h.inv.exceeded⟩
    · simpa [State.exec, emittedBytes] using h.length
    · intro hn
      simp only [State.exec, emittedBytes, List.map_nil, List.flatten_nil, List.append_nil]
      refine h.eq fun n e => ?_
      have := hn n e
      simp only [opBytes, List.length_append] at this
      omega
  | progress =>
    obtain ⟨x, h1, h2, h3, h4⟩ := progress_inv s cur infos h.inv
    have hex : (s.exec .progress).1 = s.progress.1 ∧
        emittedBytes (s.exec .progress).2 = (s.progress.2.toList.map (slice s.progress.1.buffer)).flatten := by
      rcases hp : s.progress with ⟨s', o⟩
      cases o <;> simp [State.exec, hp, State.observe, emittedBytes, fragmentBytes_eq]
    rw [hex.1, hex.2, h2.buffer, h3]
    have hag := h.inv.agrees
    by_cases hc : s.complete
    · have hm : Message 0 cur infos := by
        unfold State.complete at hc
        cases hp : s.parser with
        | none => rw [hp] at hag; exact hag
        | some p => rw [hp] at hc; simp at hc
      have hcat := message_concat hm [] rfl
      simp only [List.nil_append] at hcat
      simp only [hc, if_true, List.nil_append] at h2 ⊢
      refine ⟨segs ++ [cur], x, s.progress.2.toList, ⟨?_, h2, ?_, ?_⟩, trivial⟩
      · simp [opBytes, h.stream_eq, h1]
      · have hl := h.length
        rw [hcat] at hl
        cases ho : s.progress.2 with
        | none => simpa [ho] using hl
        | some i =>
          have := limit_slice_length s.maxSize x i
          simp at hl ⊢
          omega
      · intro hn
        rw [h3] at hn
        simp only [opBytes, List.append_nil] at hn
        rw [h.eq hn, hcat]
        have hx : limit s.maxSize x = x := by
          cases hs : s.maxSize with
          | none => rfl
          | some n =>
            have := hn n hs
            rw [h.stream_eq, h1] at this
            simp only [List.length_append] at this
            exact List.take_of_length_le (by omega)
        simp [hx]
    · have hu : Unfinished 0 cur infos := by
        unfold State.complete at hc
        cases hp : s.parser with
        | none => rw [hp] at hc; simp at hc
        | some p => rw [hp] at hag; exact agrees_unfinished hag
      have hst : infos.map (slice (cur ++ x)) = infos.map (slice cur) := by
        refine List.map_congr_left fun i hi => slice_append _ _ _ ?_
        have := unfinished_stop hu i hi
        omega
      simp only [hc, Bool.false_eq_true, if_false] at h2 ⊢
      refine ⟨segs, cur ++ x, infos ++ s.progress.2.toList, ⟨?_, h2, ?_, ?_⟩, trivial⟩
      · simp [opBytes, h.stream_eq, h1]
      · have hl := h.length
        rw [List.map_append, hst]
        cases ho : s.progress.2 with
        | none => simpa [ho] using hl
        | some i =>
          have := limit_slice_length s.maxSize (cur ++ x) i
          simp at hl ⊢
          omega
      · intro hn
        rw [h3] at hn
        simp only [opBytes, List.append_nil] at hn
        rw [h.eq hn, List.map_append, hst]
        have hx : limit s.maxSize (cur ++ x) = cur ++ x := by
          cases hs : s.maxSize with
          | none => rfl
          | some n =>
            have := hn n hs
            rw [h.stream_eq, h1] at this
            simp only [List.length_append] at this
            exact List.take_of_length_le (by simp; omega)
        simp [hx]

theorem emits_run (ops : List Op) (hsk : Op.skip ∉ ops) (s : State) (stream out segs cur infos)
    (h : Emits s stream out segs cur infos) :
    ∃ segs' cur' infos', Emits (s.run ops).1 (stream ++ enqueued ops) (out ++ emittedBytes (s.run ops).2) segs' cur' infos'
      ∧ (s.run ops).1.maxSize = s.maxSize := by
  induction ops generalizing s stream out segs cur infos with
  | nil => exact ⟨segs, cur, infos, by simpa [State.run, enqueued, emittedBytes] using h, rfl⟩
  | cons op ops ih =>
    obtain ⟨segs', cur', infos', h', hm⟩ := emits_exec s stream out segs cur infos op
      (fun e => hsk (by simp [e])) h
    obtain ⟨a, b, c, hh, hm'⟩ := ih (fun e => hsk (by simp [e])) _ _ _ _ _ _ h'
    refine ⟨a, b, c, ?_, ?_⟩
    · have e : enqueued (op :: ops) = opBytes op ++ enqueued ops := by cases op <;> simp [enqueued, opBytes]
      have e2 : emittedBytes (s.run (op :: ops)).2 = emittedBytes (s.exec op).2 ++ emittedBytes ((s.exec op).1.run ops).2 := by
        simp [State.run, emittedBytes]
      rw [e, e2]
      simp only [State.run, ← List.append_assoc]
      exact hh
    · simp only [State.run]; rw [hm', hm]

theorem emits_prefix {s stream out segs cur infos} (h : Emits s stream out segs cur infos) :
    (segs.flatten ++ (infos.map (slice cur)).flatten) <+: stream := by
  have hag := h.inv.agrees
  have hp : (infos.map (slice cur)).flatten <+: cur := by
    cases hp : s.parser with
    | none => rw [hp] at hag; have := message_concat hag [] rfl; simp at this; rw [this]; exact List.prefix_rfl
    | some p => rw [hp] at hag; simpa using unfinished_concat (agrees_unfinished hag) [] rfl
  rw [h.stream_eq, List.append_assoc]
  exact (List.prefix_append_right_inj _).2 (hp.trans (List.prefix_append _ _))

/-- The bytes emitted in a history without `skip`. -/
theorem emitted_run (m : Option Nat) (ops : List Op) (hsk : Op.skip ∉ ops) :
    (emittedBytes ((State.init m).run ops).2).length ≤ (enqueued ops).length ∧
    ((∀ n, m = some n → (enqueued ops).length ≤ n) → emittedBytes ((State.init m).run ops).2 <+: enqueued ops) := by
  obtain ⟨segs, cur, infos, h, hm⟩ := emits_run ops hsk (State.init m) [] [] [] [] []
    ⟨by simp [State.init], inv_init m, by simp, by simp⟩
  simp only [List.nil_append] at h
  have hp := emits_prefix h
  refine ⟨Nat.le_trans h.length hp.length_le, fun hn => ?_⟩
  rw [h.eq (fun n e => hn n (by rw [← e, hm]; rfl))]
  exact hp

end Imap.Frag

namespace Imap.Fuzz
open Frag

/-- The inner loop is a history of calls of `progress`. -/
theorem drain_run (s : State) : ∃ k, s.run (List.replicate k .progress) = ((drain s).2, (s.run (List.replicate k .progress)).2) ∧
    emittedBytes (s.run (List.replicate k .progress)).2 = (drain s).1 := by
  generalize hn : 2 * s.unparsed.length + rank s.parser = n
  induction n using Nat.strongRecOn generalizing s with
  | ind n ih =>
    rcases hp : s.progress with ⟨s₁, o⟩
    cases o with
    | none =>
      refine ⟨1, ?_⟩
      rw [drain]
      split
      · rename_i s' h
        rw [hp] at h
        cases h
        simp [State.run, State.exec, hp, emittedBytes]
      · rename_i h; rw [hp] at h; simp at h
    | some i =>
      have hlt := progress_rank s s₁ i hp
      obtain ⟨k, h1, h2⟩ := ih _ (by omega) s₁ rfl
      refine ⟨k + 1, ?_⟩
      rw [drain]
      split
      · rename_i h; rw [hp] at h; simp at h
      · rename_i s' info h
        rw [hp] at h
        cases h
        constructor
        · simp [List.replicate_succ, State.run, State.exec, hp]
          rw [h1]
        · simp only [emittedBytes] at h2
          simp [List.replicate_succ, State.run, State.exec, hp, emittedBytes, State.observe, h2]

theorem run_append (s : State) (a b : List Op) :
    s.run (a ++ b) = (((s.run a).1.run b).1, (s.run a).2 ++ ((s.run a).1.run b).2) := by
  induction a generalizing s with
  | nil => simp [State.run]
  | cons op a ih => simp [State.run, ih]

theorem enqueued_append (a b : List Op) : enqueued (a ++ b) = enqueued a ++ enqueued b := by
  induction a with
  | nil => simp [enqueued]
  | cons op a ih => cases op <;> simp [enqueued, ih]

theorem enqueued_progress (k : Nat) : enqueued (List.replicate k .progress) = [] := by
  induction k with
  | zero => rfl
  | succ k ih => simpa [List.replicate_succ, enqueued] using ih

/-- The outer loop is a history of calls. -/
theorem emitted_ops (s : State) (data : List Bytes) : ∃ ops, Op.skip ∉ ops ∧ enqueued ops = data.flatten ∧
    emittedBytes (s.run ops).2 = emitted s data := by
  induction data generalizing s with
  | nil => exact ⟨[], by simp, rfl, rfl⟩
  | cons c data ih =>
    obtain ⟨k, h1, h2⟩ := drain_run s
    obtain ⟨ops, i1, i2, i3⟩ := ih ((drain s).2.enqueue c)
    refine ⟨List.replicate k .progress ++ .enqueue c :: ops, ?_, ?_, ?_⟩
    · simp [i1]
    · simp [enqueued_append, enqueued_progress, enqueued, i2]
    · rw [run_append, h1]
      simp only [emittedBytes, List.map_append, List.flatten_append] at h2 i3 ⊢
      simp [h2, State.run, State.exec, i3, emitted]

end Imap.Fuzz
