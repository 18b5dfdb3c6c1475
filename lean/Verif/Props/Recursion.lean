import Verif.RecursionSpec
import Verif.Props.Dates
/-!
Theorems about the nesting of search keys, threads, body structures and body extensions: C27.
-/
set_option maxRecDepth 10000
namespace Imap
open Spec
variable [Quirks]

/-! ### Decoded values -/

/-- C27: in a decoded command, search keys are nested at most nine deep. -/
theorem C27_search (x rem : Bytes) (c : Command) (h : Codec.command.decode x = .ok rem c) : ∀ k ∈ criteria c.body, k.depth ≤ 9 := by
  have hv := command_canon (ok_of_outcomeCommand (r := command x) h)
  obtain ⟨t, b⟩ := c
  simp only [Command.valid, Bool.and_eq_true] at hv
  intro k hk
  have hv := hv.2
  cases b <;> simp only [criteria, List.not_mem_nil] at hk <;>
    simp only [CommandBody.valid, Bool.and_eq_true, isCriteria_iff] at hv
  all_goals exact ((by simp_all : k.valid = true ∧ k.depth ≤ 9)).2

theorem response_canon {x r : Bytes} {v : Response} (h : response x = .ok r v) : v.valid = true := (Canon.post (p := response)) _ _ _ h

/-- C27: in a decoded response, threads are nested at most eight deep. -/
theorem C27_thread (x rem : Bytes) (l : List Thread) (h : Codec.response.decode x = .ok rem (.data (.thread l) : Response)) :
    ∀ t ∈ l, t.depth ≤ 8 := by
  have hv := response_canon (ok_of_outcomeResponse (r := response x) h)
  simp only [Response.valid, Data.valid, List.all_eq_true, Bool.and_eq_true, decide_eq_true_eq] at hv
  exact fun t ht => (hv t ht).2

theorem bodies_valid {x rem : Bytes} {m : Response} (h : Codec.response.decode x = .ok rem m) :
    ∀ b ∈ bodies m, b.valid = true ∧ b.need ≤ 8 := by
  have hv := response_canon (ok_of_outcomeResponse (r := response x) h)
  intro b hb
  unfold bodies at hb
  split at hb
  · next n items =>
    simp only [Response.valid, Data.valid, List.all_eq_true, Bool.and_eq_true] at hv
    simp only [List.mem_filterMap] at hb
    obtain ⟨i, hi, hb⟩ := hb
    have hv := hv.2 i hi
    split at hb <;> simp at hb <;> subst hb
    all_goals simpa [MessageDataItem.valid] using hv
  · simp at hb

mutual
theorem multiDepth_need : ∀ b : BodyStructure, b.valid = true → multiDepth b + 2 = b.need
  | .basic .. | .message .. | .text .. => fun _ => by simp [multiDepth, BodyStructure.need]
  | .multi l _ _ => fun h => by
    simp only [BodyStructure.valid, Bool.and_eq_true, Bool.not_eq_true', List.isEmpty_eq_false_iff] at h
    have := multiDepths_need l h.1.1.1 h.1.1.2
    simp only [multiDepth, BodyStructure.need]
    omega
theorem multiDepths_need : ∀ l : List BodyStructure, l ≠ [] → BodyStructure.valid.go l = true → multiDepths l + 2 = BodyStructure.need.go l
  | [] => fun h _ => absurd rfl h
  | [b] => fun _ h => by
    simp only [BodyStructure.valid.go, Bool.and_eq_true] at h
    have := multiDepth_need b h.1
    simp only [multiDepths, BodyStructure.need.go]
    omega
  | b :: c :: l => fun _ h => by
    rw [BodyStructure.valid.go, Bool.and_eq_true] at h
    have := multiDepth_need b h.1
    have := multiDepths_need (c :: l) (by simp) h.2
    rw [multiDepths, BodyStructure.need.go]
    omega
end

/-- C27: in a decoded response, multiparts are nested at most six deep (where a message inside counts anew). -/
theorem C27_multipart (x rem : Bytes) (m : Response) (h : Codec.response.decode x = .ok rem m) : ∀ b ∈ bodies m, multiDepth b ≤ 6 := by
  intro b hb
  have hv := bodies_valid h b hb
  have := multiDepth_need b hv.1
  omega

/-- The hypotheses are met by a body structure with two levels of parts. -/
example : ∃ m b, @Codec.decode Quirks.default .response
      b!"* 1 FETCH (BODY (((\"a\" \"b\" NIL NIL NIL \"c\" 1)(\"a\" \"b\" NIL NIL NIL \"c\" 1) \"d\") \"e\"))\r\n" = .ok [] m ∧
    b ∈ Spec.bodies m ∧ Spec.multiDepth b = 2 :=
  ⟨_, _, by with_unfolding_all rfl, List.Mem.head _, rfl⟩

theorem extensions_le {o : Option Disposition} (h : isOpt Disposition.valid o = true) : ∀ e ∈ extensions o, e.depth ≤ 8 := by
  intro e he
  unfold extensions at he
  split at he
  · next l =>
    simp only [isOpt, Disposition.valid, Language.valid, Location.valid, Bool.and_eq_true, List.all_eq_true, decide_eq_true_eq] at h
    exact (h.2.2.2 e he).2
  · simp at he

theorem ext_le {x : Option SinglePartExt} (h : isOpt SinglePartExt.valid x = true) : ∀ e ∈ extensions (x.bind (·.tail)), e.depth ≤ 8 := by
  cases x with
  | none => simp [extensions]
  | some x =>
    simp only [isOpt, SinglePartExt.valid, Bool.and_eq_true] at h
    exact extensions_le h.2

theorem mext_le {x : Option MultiPartExt} (h : isOpt MultiPartExt.valid x = true) : ∀ e ∈ extensions (x.bind (·.tail)), e.depth ≤ 8 := by
  cases x with
  | none => simp [extensions]
  | some x =>
    simp only [isOpt, MultiPartExt.valid, Bool.and_eq_true] at h
    exact extensions_le h.2

mutual
theorem allExtensions_le : ∀ b : BodyStructure, b.valid = true → ∀ e ∈ allExtensions b, e.depth ≤ 8
  | .basic _ _ _ x => fun h => by
    simp only [BodyStructure.valid, Bool.and_eq_true] at h
    exact ext_le h.2
  | .text _ _ _ x => fun h => by
    simp only [BodyStructure.valid, Bool.and_eq_true] at h
    exact ext_le h.2
  | .message _ _ b _ x => fun h e he => by
    simp only [BodyStructure.valid, Bool.and_eq_true] at h
    simp only [allExtensions, List.mem_append] at he
    rcases he with he | he
    · exact allExtensions_le b h.1.1.1.2 e he
    · exact ext_le h.2 e he
  | .multi l _ x => fun h e he => by
    simp only [BodyStructure.valid, Bool.and_eq_true] at h
    simp only [allExtensions, List.mem_append] at he
    rcases he with he | he
    · exact allExtensionsList_le l h.1.1.2 e he
    · exact mext_le h.2 e he
theorem allExtensionsList_le : ∀ l : List BodyStructure, BodyStructure.valid.go l = true → ∀ e ∈ allExtensionsList l, e.depth ≤ 8
  | [] => fun _ e he => by simp [allExtensionsList] at he
  | b :: l => fun h e he => by
    simp only [BodyStructure.valid.go, Bool.and_eq_true] at h
    simp only [allExtensionsList, List.mem_append] at he
    rcases he with he | he
    · exact allExtensions_le b h.1 e he
    · exact allExtensionsList_le l h.2 e he
end

/-- C27: in a decoded response, body extensions are nested at most eight deep. -/
theorem C27_extension (x rem : Bytes) (m : Response) (h : Codec.response.decode x = .ok rem m) :
    ∀ b ∈ bodies m, ∀ e ∈ allExtensions b, e.depth ≤ 8 :=
  fun b hb => allExtensions_le b (bodies_valid h b hb).1

/-- The hypotheses are met by a body structure with a list as extension. -/
example : ∃ m b, @Codec.decode Quirks.default .response
      b!"* 1 FETCH (BODYSTRUCTURE (\"a\" \"b\" NIL NIL NIL \"c\" 1 NIL NIL NIL NIL (1 (2))))\r\n" = .ok [] m ∧
    b ∈ Spec.bodies m ∧ (Spec.allExtensions b).map BodyExtension.depth = [3] :=
  ⟨_, _, by with_unfolding_all rfl, List.Mem.head _, rfl⟩

/-! ### Deeply nested input -/

omit [Quirks] in
theorem alt_stop {α : Type} {p : P α} {ps : List (P α)} {x : Bytes} {k : Fail} (h : p x = .failure k) : alt (p :: ps) x = .failure k := by
  rw [alt_cons, orElse, h]

theorem searchKey_deep (os : List SearchOpener) (y : Bytes) :
    searchKey os.length (os.flatMap SearchOpener.bytes ++ y) = .failure .recursionLimit := by
  induction os with
  | nil => rfl
  | cons o os ih =>
    rw [List.flatMap_cons, List.append_assoc, List.length_cons, searchKey]
    cases o with
    | not =>
      skip_alts 27
      refine alt_stop ?_
      simp [SearchOpener.bytes, tagNC, sp_cons, ih]
    | or =>
      skip_alts 28
      refine alt_stop ?_
      simp [SearchOpener.bytes, tagNC, sp_cons, ih]
    | paren =>
      skip_alts 37
      refine alt_stop ?_
      simp [SearchOpener.bytes, tag, sepList1, ih]

/-- C27: as soon as nine search keys are open, in whatever way, the command is rejected, without looking at what follows. -/
theorem C27_search_deep (os : List SearchOpener) (h : os.length = 9) (y : Bytes) :
    Codec.command.decode (b!"A SEARCH " ++ os.flatMap SearchOpener.bytes ++ y) = .failed := by
  have hk := searchKey_deep os y
  rw [h] at hk
  generalize hz : os.flatMap SearchOpener.bytes ++ y = z at hk
  have hz' : ∃ b z', z = b :: z' ∧ lower b ≠ 99 := by
    cases os with
    | nil => simp at h
    | cons o os =>
      rw [← hz, List.flatMap_cons]
      cases o <;> exact ⟨_, _, rfl, by decide⟩
  obtain ⟨b, z', rfl, hb⟩ := hz'
  have h0 : tagNC b!"CHARSET" (b :: z') = .error := by
    have : ¬ lower 67 = lower b := fun e => hb (e ▸ rfl)
    simp [tagNC, this]
  have hs : search (b!"SEARCH " ++ b :: z') = .failure .recursionLimit := by
    have ho : opt (do sp; tagNC b!"CHARSET"; sp; charset) (32 :: b :: z') = .ok (32 :: b :: z') none := by
      simp only [opt, P.bind_apply, sp_cons, Res.andThen_ok, h0, Res.andThen_error]
    have ht : tagNC b!"SEARCH" (b!"SEARCH " ++ b :: z') = .ok (32 :: b :: z') () := rfl
    simp only [search, P.bind_apply, ht, Res.andThen_ok, ho, sp_cons, sepList1, hk, Res.andThen_failure]
  have h1 : commandSelect (b!"SEARCH " ++ b :: z') = .failure .recursionLimit := by
    unfold commandSelect
    skip_alts 8
    exact alt_stop hs
  have h2 : alt [commandAny, commandAuth, commandNonauth, commandSelect] (b!"SEARCH " ++ b :: z') = .failure .recursionLimit := by
    skip_alts 3
    exact alt_stop h1
  have h3 : tagImap (b!"A SEARCH " ++ b :: z') = .ok (b!" SEARCH " ++ b :: z') b!"A" := rfl
  show outcomeCommand (command _) = _
  rw [List.append_assoc, hz]
  simp only [command, P.bind_apply, h3, Res.andThen_ok]
  simp only [List.cons_append, List.nil_append, sp_cons, Res.andThen_ok] at h2 ⊢
  simp only [commandBody, P.bind_apply, h2]
  rfl

omit [Quirks] in
theorem threadList_deep (os : List (Option Nat)) (h : ∀ n, some n ∈ os → NZ32 n) (y : Bytes) :
    ∃ z, os.flatMap threadOpener ++ (b!"(" ++ y) = 40 :: z ∧ threadList os.length (40 :: z) = .failure .recursionLimit := by
  induction os with
  | nil => exact ⟨y, rfl, rfl⟩
  | cons o os ih =>
    obtain ⟨z, hz, ih⟩ := ih fun n hn => h n (by simp [hn])
    rw [List.flatMap_cons, List.append_assoc, List.length_cons, threadList, hz]
    have hm : many2 (threadList os.length) (40 :: z) = .failure .recursionLimit := by
      have : many0 (threadList os.length) (40 :: z) = .failure .recursionLimit := by rw [many0, ih]
      rw [many2, this]
    cases o with
    | none =>
      refine ⟨40 :: z, rfl, ?_⟩
      have e : nzNumber (40 :: z) = .error := rfl
      simp [tag, alt_cons, orElse, hm, sepList1, e]
    | some n =>
      have hn := h n (by simp)
      refine ⟨showNat n ++ 32 :: 40 :: z, by simp [threadOpener], ?_⟩
      have e := rt_nzNumber (n := n) (r := 32 :: 40 :: z) (by have := hn.1; omega) (by have := hn.2; omega) rfl
      have e2 : sepList1 sp nzNumber (showNat n ++ 32 :: 40 :: z) = .ok (32 :: 40 :: z) [n] := by
        have : many0 (do sp; nzNumber) (32 :: 40 :: z) = .ok (32 :: 40 :: z) [] := many0_stop rfl
        simp [sepList1, e, this]
      simp [tag, alt_cons, orElse, e2, opt, sp_cons, hm]

/-- C27: as soon as nine threads are open, in whatever way, the response is rejected, without looking at what follows. -/
theorem C27_thread_deep (os : List (Option Nat)) (h : os.length = 8) (hn : ∀ n, some n ∈ os → NZ32 n) (y : Bytes) :
    Codec.response.decode (b!"* THREAD " ++ os.flatMap threadOpener ++ b!"(" ++ y) = .failed := by
  obtain ⟨z, hz, hk⟩ := threadList_deep os hn y
  rw [h] at hk
  have ht : threadData (b!"THREAD " ++ 40 :: z) = .failure .recursionLimit := by
    simp [threadData, tagNC, opt, sp_cons, many1, hk]
  have hd : responseDataInner (b!"THREAD " ++ 40 :: z) = .failure .recursionLimit := by
    unfold responseDataInner
    skip_alts 2
    refine alt_stop ?_
    have : mailboxData (b!"THREAD " ++ 40 :: z) = .failure .recursionLimit := by
      unfold mailboxData
      skip_alts 5
      refine alt_stop ?_
      simp only [P.map_apply, ht, Res.andThen_failure]
    simp only [P.map_apply, this, Res.andThen_failure]
  have hr : responseData (b!"* THREAD " ++ 40 :: z) = .failure .recursionLimit := by
    have ht : tag b!"* " (b!"* THREAD " ++ 40 :: z) = .ok (b!"THREAD " ++ 40 :: z) () := rfl
    simp only [responseData, P.bind_apply, ht, Res.andThen_ok, hd, Res.andThen_failure]
  have hr : response (b!"* THREAD " ++ 40 :: z) = .failure .recursionLimit := by
    unfold response
    split
    · skip_alts 2
      exact alt_stop hr
    · skip_alts 1
      exact alt_stop hr
  show outcomeResponse (response _) = _
  rw [List.append_assoc, List.append_assoc, hz, hr]
  rfl

theorem body_deep (k : Nat) (f : Nat) (hf : k < f) (y : Bytes) :
    bodyFuel f k (List.replicate (k + 1) 40 ++ y) = .failure .recursionLimit := by
  induction k generalizing f with
  | zero =>
    obtain ⟨f, rfl⟩ : ∃ g, f = g + 1 := ⟨f - 1, by omega⟩
    rfl
  | succ k ih =>
    obtain ⟨f, rfl⟩ : ∃ g, f = g + 1 := ⟨f - 1, by omega⟩
    have ih := ih f (by omega)
    rw [bodyFuel, bodyStep, if_neg (by omega), show k + 1 - 1 = k by omega]
    rw [List.replicate_succ, List.cons_append]
    have e1 : ∃ z, List.replicate (k + 1) 40 ++ y = 40 :: z := ⟨_, by rw [List.replicate_succ, List.cons_append]⟩
    obtain ⟨z, hz⟩ := e1
    rw [hz] at ih ⊢
    have key : alt [bodyType1part k (bodyFuel f 7), bodyTypeMpart k (bodyFuel f k)] (40 :: z) = .failure .recursionLimit := by
      by_cases hk : k = 0
      · exact alt_stop (by simp [bodyType1part, hk])
      · refine Eq.trans (alt_skip ?_) (alt_stop ?_)
        · rw [bodyType1part, if_neg hk]
          rfl
        · rw [bodyTypeMpart, if_neg hk]
          simp only [P.bind_apply, many1, ih, Res.andThen_failure]
    simp only [P.bind_apply, tag, if_true, Res.andThen_ok, key, Res.andThen_failure]

theorem bodystructure_failed {z : Bytes} (h0 : body 8 z = .failure .recursionLimit) :
    Codec.response.decode (b!"* 1 FETCH (BODYSTRUCTURE " ++ z) = .failed := by
  have h1 : msgAttStatic (b!"BODYSTRUCTURE " ++ z) = .failure .recursionLimit := by
    unfold msgAttStatic
    skip_alts 6
    refine alt_stop ?_
    simp only [P.map_apply, P.bind_apply, tagNC_append, Res.andThen_ok, h0, Res.andThen_failure]
  have h2 : alt [msgAttDynamic, msgAttStatic] (b!"BODYSTRUCTURE " ++ z) = .failure .recursionLimit := by
    skip_alts 1
    exact alt_stop h1
  have h3 : msgAtt (b!"(" ++ (b!"BODYSTRUCTURE " ++ z)) = .failure .recursionLimit := by
    simp only [msgAtt, P.bind_apply, tag_append, Res.andThen_ok, sepList1, h2, Res.andThen_failure]
  have hd := fetch_failure h3
  have hr : responseData (b!"* " ++ (b!"1 FETCH " ++ (b!"(" ++ (b!"BODYSTRUCTURE " ++ z)))) = .failure .recursionLimit := by
    simp only [responseData, P.bind_apply, tag_append, Res.andThen_ok, hd, Res.andThen_failure]
  have hr : response (b!"* " ++ (b!"1 FETCH " ++ (b!"(" ++ (b!"BODYSTRUCTURE " ++ z)))) = .failure .recursionLimit := by
    unfold response
    split
    · skip_alts 2
      exact alt_stop hr
    · skip_alts 1
      exact alt_stop hr
  show outcomeResponse (response _) = _
  rw [show b!"* 1 FETCH (BODYSTRUCTURE " ++ z = b!"* " ++ (b!"1 FETCH " ++ (b!"(" ++ (b!"BODYSTRUCTURE " ++ z))) by simp, hr]
  rfl

/-- C27: as soon as nine body structures are open, the response is rejected, without looking at what follows. -/
theorem C27_multipart_deep (y : Bytes) :
    Codec.response.decode (b!"* 1 FETCH (BODYSTRUCTURE " ++ (List.replicate 9 40 ++ y)) = .failed :=
  bodystructure_failed (body_deep 8 _ (by simp) y)

/-- The parser of extensions rejects parentheses that are nested too deep. -/
theorem bodyExtension_deep (k : Nat) (y : Bytes) : bodyExtension k (List.replicate (k + 1) 40 ++ y) = .failure .recursionLimit := by
  induction k with
  | zero => rfl
  | succ k ih =>
    rw [bodyExtension, List.replicate_succ, List.cons_append]
    skip_alts 2
    refine alt_stop ?_
    simp only [P.map_apply, P.bind_apply, tag, if_true, Res.andThen_ok, sepList1, ih, Res.andThen_failure]

/-- C27: as soon as nine body extensions are open, the response is rejected, without looking at what follows. -/
theorem C27_extension_deep (y : Bytes) :
    Codec.response.decode (b!"* 1 FETCH (BODYSTRUCTURE (\"TEXT\" \"PLAIN\" NIL NIL NIL \"7BIT\" 0 0 NIL NIL NIL NIL " ++
      (List.replicate 9 40 ++ y)) = .failed := by
  have h0 := bodyExtension_deep 8 y
  generalize hT : List.replicate 9 40 ++ y = T at h0 ⊢
  have hn : ∀ z, nstring (b!"NIL" ++ 32 :: z) = .ok (32 :: z) none := fun z => rfl
  have h1 : extLocation (b!" NIL " ++ T) = .failure .recursionLimit := by
    have : many0 (do sp; bodyExtension 8) (32 :: T) = .failure .recursionLimit := by
      rw [many0]
      simp only [P.bind_apply, sp_cons, Res.andThen_ok, h0, Res.andThen_failure]
    have hn := hn T
    simp only [List.cons_append, List.nil_append] at hn ⊢
    simp only [extLocation, P.bind_apply, sp_cons, Res.andThen_ok, hn, this, Res.andThen_failure]
  have h2 : extLanguage (b!" NIL NIL " ++ T) = .failure .recursionLimit := by
    have hl : bodyFldLang (b!"NIL NIL " ++ T) = .ok (b!" NIL " ++ T) [] := rfl
    simp only [List.cons_append, List.nil_append] at h1 hl ⊢
    simp only [extLanguage, P.bind_apply, sp_cons, Res.andThen_ok, hl, opt, h1, Res.andThen_failure]
  have h3 : extDisposition (b!" NIL NIL NIL " ++ T) = .failure .recursionLimit := by
    have hl : bodyFldDsp (b!"NIL NIL NIL " ++ T) = .ok (b!" NIL NIL " ++ T) none := rfl
    simp only [List.cons_append, List.nil_append] at h2 hl ⊢
    simp only [extDisposition, P.bind_apply, sp_cons, Res.andThen_ok, hl, opt, h2, Res.andThen_failure]
  have h4 : opt (do sp; bodyExt1part) (b!" NIL NIL NIL NIL " ++ T) = .failure .recursionLimit := by
    have hn := hn (b!"NIL NIL NIL " ++ T)
    simp only [List.cons_append, List.nil_append] at h3 hn ⊢
    simp only [bodyExt1part, P.bind_apply, sp_cons, Res.andThen_ok, hn, opt, h3, Res.andThen_failure]
  let f : BasicFields := ⟨[], none, none, .quoted b!"7BIT", 0⟩
  have ht : bodyTypeText (b!"\"TEXT\" \"PLAIN\" NIL NIL NIL \"7BIT\" 0 0 NIL NIL NIL NIL " ++ T) =
      .ok (b!" NIL NIL NIL NIL " ++ T) (f, (.text (.quoted b!"PLAIN") 0 : SpecificFields BodyStructure)) := by
    have hf := rt_bodyFields (f := f) (r := b!" 0 NIL NIL NIL NIL " ++ T) rfl rfl
    have hfe : bytes f.enc = b!"NIL NIL NIL \"7BIT\" 0" := by
      simp [f, BasicFields.enc, encParamList, list1AttrOrNil, list1OrNil, encNString, IString.enc, encQuoted, showNat, escapeQuoted, replace1]
    have hs : string (b!"\"PLAIN\" NIL NIL NIL \"7BIT\" 0 0 NIL NIL NIL NIL " ++ T) =
      .ok (b!" NIL NIL NIL \"7BIT\" 0 0 NIL NIL NIL NIL " ++ T) (.quoted b!"PLAIN") := rfl
    have hk : number (b!"0 NIL NIL NIL NIL " ++ T) = .ok (b!" NIL NIL NIL NIL " ++ T) 0 := rfl
    rw [hfe] at hf
    have hm : tagNC b!"\"TEXT\" " (b!"\"TEXT\" \"PLAIN\" NIL NIL NIL \"7BIT\" 0 0 NIL NIL NIL NIL " ++ T) =
      .ok (b!"\"PLAIN\" NIL NIL NIL \"7BIT\" 0 0 NIL NIL NIL NIL " ++ T) () := rfl
    simp only [bodyTypeText, P.bind_apply, hm, Res.andThen_ok, hs]
    simp only [List.cons_append, List.nil_append, sp_cons, Res.andThen_ok] at hf hk ⊢
    simp only [hf, hk, sp_cons, Res.andThen_ok, P.bind_apply, P.pure_apply]
  have h5 : body 8 (b!"(\"TEXT\" \"PLAIN\" NIL NIL NIL \"7BIT\" 0 0 NIL NIL NIL NIL " ++ T) = .failure .recursionLimit := by
    rw [body_eq, bodyStep, if_neg (by decide)]
    have : alt [bodyType1part 7 (body 7), bodyTypeMpart 7 (body 7)] (b!"\"TEXT\" \"PLAIN\" NIL NIL NIL \"7BIT\" 0 0 NIL NIL NIL NIL " ++ T) =
        .failure .recursionLimit := by
      refine alt_stop ?_
      rw [bodyType1part, if_neg (by decide)]
      have ha : alt [bodyTypeMsg (body 7), bodyTypeText, bodyTypeBasic] (b!"\"TEXT\" \"PLAIN\" NIL NIL NIL \"7BIT\" 0 0 NIL NIL NIL NIL " ++ T) =
          .ok (b!" NIL NIL NIL NIL " ++ T) (f, .text (.quoted b!"PLAIN") 0) := by
        refine Eq.trans (alt_skip ?_) (alt_hit ht)
        rfl
      simp only [P.bind_apply, ha, Res.andThen_ok, h4, Res.andThen_failure]
    have hb : tag b!"(" (b!"(\"TEXT\" \"PLAIN\" NIL NIL NIL \"7BIT\" 0 0 NIL NIL NIL NIL " ++ T) =
      .ok (b!"\"TEXT\" \"PLAIN\" NIL NIL NIL \"7BIT\" 0 0 NIL NIL NIL NIL " ++ T) () := rfl
    simp only [P.bind_apply, hb, Res.andThen_ok, this, Res.andThen_failure]
  exact bodystructure_failed h5


/-! ### Nested messages -/

/-- Messages nested in each other. -/
def nestedMessages (f : BasicFields) (e : Envelope) (b : BodyStructure) : Nat → BodyStructure
  | 0 => b
  | n + 1 => .message f e (nestedMessages f e b n) 0 none

/-- Some fields. -/
def someFields : BasicFields := ⟨[], none, none, .quoted [], 0⟩

/-- Some envelope. -/
def someEnvelope : Envelope := ⟨none, none, [], [], [], [], [], [], none, none⟩

theorem nested_valid (n : Nat) (b : BodyStructure) (hb : b.valid = true) (h7 : b.need ≤ 7) :
    (nestedMessages someFields someEnvelope b n).valid = true ∧ (nestedMessages someFields someEnvelope b n).need ≤ 7 := by
  induction n with
  | zero => exact ⟨hb, h7⟩
  | succ n ih =>
    refine ⟨?_, by simp [nestedMessages, BodyStructure.need]⟩
    have h1 : someFields.valid = true := rfl
    have h2 : someEnvelope.valid = true := rfl
    simp only [nestedMessages, BodyStructure.valid, h1, h2, ih.1, ih.2, isOpt, Bool.and_true, Bool.and_self, decide_true]
    decide

omit [Quirks] in
theorem nested_depth (n : Nat) (b : BodyStructure) : n ≤ messageDepth (nestedMessages someFields someEnvelope b n) := by
  induction n with
  | zero => simp
  | succ n ih => simp only [nestedMessages, messageDepth]; omega

/-- C27 is false for nested messages: for each number there is a response that decodes to a body structure with that many messages
nested in each other. -/
theorem C27_negation_message (n : Nat) : ∃ x m, Codec.response.decode x = .ok [] m ∧ ∃ b ∈ bodies m, n ≤ messageDepth b := by
  have hv := nested_valid n (.text someFields (.quoted []) 0 none) rfl (by decide)
  let b := nestedMessages someFields someEnvelope (.text someFields (.quoted []) 0 none) n
  let m : Response := .data (.fetch 1 [.bodyStructure b])
  have h1 : m.valid = true := by
    simp only [m, Response.valid, Data.valid, List.all_cons, List.all_nil, MessageDataItem.valid]
    simp [hv.1, b, isNonZeroU32, u32Max]
    omega
  have h2 : m.noModSeq = true := rfl
  refine ⟨bytes m.enc, m, ?_, b, by simp [bodies, m], nested_depth n _⟩
  show outcomeResponse (response _) = _
  have := rt_response (r := []) h1 h2
  rw [List.append_nil] at this
  rw [this]
  rfl

omit [Quirks] in
theorem messageDepths_lt {l : List BodyStructure} {f : Nat} (h : ∀ b ∈ l, messageDepth b < f) : messageDepths l < f + 1 := by
  induction l with
  | nil => simp [messageDepths]
  | cons b l ih =>
    have h1 := h b (by simp)
    have h2 := ih fun b hb => h b (by simp [hb])
    simp only [messageDepths]
    omega

theorem bodyStep_calls {n f : Nat} {m p : P BodyStructure} (hm : Post m fun b => messageDepth b < f) (hp : Post p fun b => messageDepth b < f) :
    Post (bodyStep n m p) fun b => messageDepth b < f + 1 := by
  have : Canon m _ := ⟨hm⟩
  have : Canon p _ := ⟨hp⟩
  unfold bodyStep
  refine Post.ite (fun _ => Post.failure) (fun hn => Post.bind fun _ _ => ?_)
  have : Canon (alt [bodyType1part (n - 1) m, bodyTypeMpart (n - 1) p]) fun b => messageDepth b < f + 1 := ⟨by
    refine Post.alt_cons ?_ (Post.alt_cons ?_ Post.alt_nil)
    · unfold bodyType1part
      refine Post.ite (fun _ => Post.failure) (fun hn' => ?_)
      have : Canon (alt [bodyTypeMsg m, bodyTypeText, bodyTypeBasic]) fun x : BasicFields × SpecificFields BodyStructure =>
          messageDepth (BodyStructure.single x.1 none x.2) < f + 1 := ⟨by
        refine Post.alt_cons ?_ (Post.alt_cons ?_ (Post.alt_cons ?_ Post.alt_nil))
        · unfold bodyTypeMsg
          refine Post.bind fun _ _ => Post.bind fun _ _ => Post.bind fun f hf => Post.bind fun _ _ => Post.bind fun e he =>
            Post.bind fun _ _ => Post.bind fun b hb => Post.bind fun _ _ => Post.bind fun k hk => Post.pure ?_
          simpa [BodyStructure.single, messageDepth] using hb
        · unfold bodyTypeText
          refine Post.bind fun _ _ => Post.bind fun s hs => Post.bind fun _ _ => Post.bind fun f hf => Post.bind fun _ _ =>
            Post.bind fun k hk => Post.pure ?_
          simp [BodyStructure.single, messageDepth]
        · unfold bodyTypeBasic
          refine Post.bind fun t ht => Post.bind fun _ _ => Post.bind fun s hs => Post.bind fun _ _ => Post.bind fun f hf =>
            Post.pure ?_
          simp [BodyStructure.single, messageDepth]⟩
      refine Post.bind fun x hx => Post.bind fun ext hext => Post.pure ?_
      obtain ⟨f, s⟩ := x
      cases s <;> simpa only [BodyStructure.single, messageDepth] using hx
    · unfold bodyTypeMpart
      refine Post.ite (fun _ => Post.failure) (fun hn' => Post.bind fun l hl => Post.bind fun _ _ => Post.bind fun s hs =>
        Post.bind fun x hx => Post.pure ?_)
      simp only [messageDepth]
      exact messageDepths_lt hl.2⟩
  exact Post.bind fun b hb => Post.bind fun _ _ => Post.pure hb

/-- Each of these messages is a nested call of the parser: with no more than that many nested calls, it can not succeed. -/
theorem C27_negation_calls (fuel n : Nat) (x r : Bytes) (b : BodyStructure) (h : bodyFuel fuel n x = .ok r b) : messageDepth b < fuel := by
  have : Post (bodyFuel fuel n) fun b => messageDepth b < fuel := by
    clear h
    induction fuel generalizing n with
    | zero => intro x r v e; simp [bodyFuel] at e
    | succ f ih => exact bodyStep_calls (ih 7) (ih (n - 1))
  exact this x r b h

/-- The hypothesis is met by a basic body. -/
example := @C27_negation_calls Quirks.default 1 8 b!"(\"a\" \"b\" NIL NIL NIL \"c\" 1)x" b!"x" _ (by with_unfolding_all rfl)

end Imap

namespace Imap.RecursionExamples
open Spec
local instance : Quirks := Quirks.default

/-- Nine openers, of all kinds. -/
example : ([.not, .or, .paren, .not, .not, .paren, .paren, .or, .not] : List SearchOpener).length = 9 := rfl

/-- Eight open keys are fine. -/
example : ∃ c, Codec.command.decode b!"A SEARCH NOT NOT NOT NOT NOT NOT NOT NOT SEEN\r\n" = .ok [] c := ⟨_, by with_unfolding_all rfl⟩

/-- Nine are not. -/
example : Codec.command.decode b!"A SEARCH NOT NOT NOT NOT NOT NOT NOT NOT NOT SEEN\r\n" = .failed := by with_unfolding_all rfl

example : NZ32 7 ∧ ([none, some 7, none, none, some 7, none, none, none] : List (Option Nat)).length = 8 := ⟨by simp [NZ32], rfl⟩

/-- The depth of a search key counts the keys nested in each other. -/
example : (SearchKey.not (.or .seen (.and [.draft]))).depth = 4 := rfl

/-- A thread of depth 2. -/
example : ∃ l, Codec.response.decode b!"* THREAD ((1)(2 3))\r\n" = .ok [] (.data (.thread l) : Response) ∧ l.map Thread.depth = [2] :=
  ⟨_, by with_unfolding_all rfl, rfl⟩

end Imap.RecursionExamples
