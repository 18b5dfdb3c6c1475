import Verif.Features
import Verif.GrammarServerParts
import Verif.GrammarServerLine
/-
What a build derives from the formal syntax of the server, a build with more features derives as well.
-/
set_option maxRecDepth 10000

namespace Imap.Gr

open Imap.Grammar (G Star choice onlyIf optD sepBy1 sepBy0 such token octets named lit is plus)
open Imap.Spec (Extends)

variable {α β γ δ : Type}

/-! ### Texts without a closing bracket -/

/-- No text of the grammar contains a closing bracket. -/
def Closed (g : G α) : Prop := ∀ w v, g w v → 93 ∉ w

theorem closed_lowerAll {w s : Bytes} (hs : 93 ∉ lowerAll s) (e : lowerAll w = lowerAll s) : 93 ∉ w := by
  intro h
  apply hs
  rw [← e]
  have : lower 93 ∈ lowerAll w := List.mem_map.2 ⟨93, h, rfl⟩
  exact this

theorem Closed.lit {s : Bytes} (hs : 93 ∉ lowerAll s) : Closed (lit s) := fun _ _ h => closed_lowerAll hs h
theorem Closed.is {s : Bytes} {a : α} (hs : 93 ∉ lowerAll s) : Closed (is s a) := fun _ _ h => closed_lowerAll hs h.1
theorem Closed.pure {a : α} : Closed (Pure.pure a : G α) := by rintro _ _ ⟨rfl, -⟩; simp
theorem Closed.bind {g : G α} {f : α → G β} (h : Closed g) (hf : ∀ a, Closed (f a)) : Closed (g >>= f) := by
  rintro _ v ⟨w1, w2, a, rfl, h1, h2⟩
  rw [List.mem_append, not_or]
  exact ⟨h _ _ h1, hf _ _ _ h2⟩
theorem Closed.map {g : G α} {f : α → β} (h : Closed g) : Closed (f <$> g) := by
  rintro _ v ⟨a, h1, -⟩
  exact h _ _ h1
theorem Closed.nil : Closed (choice [] : G α) := by
  rintro _ v ⟨a, h1, -⟩
  simp at h1
theorem Closed.cons {g : G α} {gs : List (G α)} (h : Closed g) (hs : Closed (choice gs)) : Closed (choice (g :: gs)) := by
  rintro w v ⟨k, hk, hw⟩
  rcases List.mem_cons.1 hk with rfl | hk
  · exact h _ _ hw
  · exact hs _ _ ⟨k, hk, hw⟩
theorem Closed.star {g : G α} (h : Closed g) : Closed (Star g) := by
  intro w v hw
  induction hw with
  | nil => simp
  | cons h1 _ ih =>
    rw [List.mem_append, not_or]
    exact ⟨h _ _ h1, ih⟩
theorem Closed.sepBy1 {s : G Unit} {g : G α} (hs : Closed s) (h : Closed g) : Closed (sepBy1 s g) :=
  Closed.bind h fun _ => Closed.bind (Closed.star (Closed.bind hs fun _ => h)) fun _ => Closed.pure
theorem Closed.such {g : G α} {p : α → Prop} (h : Closed g) : Closed (such g p) := fun _ _ hw => h _ _ hw.1
theorem Closed.numeral {w : Bytes} (h : Spec.Numeral w) : 93 ∉ w := by
  intro hm
  have := h.2 _ hm
  revert this
  decide
theorem closed_number : Closed Grammar.number := fun _ _ h => Closed.numeral h.1
theorem closed_number64 : Closed Grammar.number64 := fun _ _ h => Closed.numeral h.1

macro "closed" : tactic => `(tactic| repeat' first
  | exact Closed.lit (by decide)
  | exact Closed.is (by decide)
  | exact Closed.pure
  | exact Closed.nil
  | exact closed_number
  | exact closed_number64
  | with_reducible refine Closed.map ?_
  | with_reducible refine Closed.cons ?_ ?_
  | with_reducible refine Closed.star ?_
  | with_reducible refine Closed.sepBy1 ?_ ?_
  | with_reducible refine Closed.such ?_
  | with_reducible refine Closed.bind ?_ fun _ => ?_)

theorem closed_sequenceSet : Closed Grammar.sequenceSet := by
  unfold Grammar.sequenceSet Grammar.seqRange Grammar.seqNumber Grammar.nzNumber
  closed

/-- The texts around the first closing bracket. -/
theorem split_closing {p s r t : Bytes} (hp : 93 ∉ p) (hs : 93 ∉ s) (e : p ++ 93 :: r = s ++ 93 :: t) : p = s ∧ r = t := by
  induction p generalizing s with
  | nil =>
    cases s with
    | nil => simpa using e
    | cons b s =>
      simp only [List.nil_append, List.cons_append, List.cons.injEq] at e
      rw [← e.1] at hs
      simp at hs
  | cons a p ih =>
    cases s with
    | nil =>
      simp only [List.nil_append, List.cons_append, List.cons.injEq] at e
      rw [e.1] at hp
      simp at hp
    | cons b s =>
      simp only [List.cons_append, List.cons.injEq] at e
      simp only [List.mem_cons, not_or] at hp hs
      obtain ⟨rfl, rfl⟩ := ih hp.2 hs.2 e.2
      exact ⟨by rw [e.1], rfl⟩

section
variable {q q' : Quirks} [h : Extends q q']

/-! ### Capabilities and codes -/

theorem sim_capability : Sim (Spec.CapabilityKnown q') (@Grammar.Server.capability q) (@Grammar.Server.capability q') := by
  rintro w v (h1 | h1 | ⟨ha, h1, h2, rfl⟩)
  · exact ⟨v, .same v, .inl (capabilityNames_mono h1)⟩
  · exact ⟨v, .same v, .inr (.inl h1)⟩
  · by_cases hm : lowerAll w ∈ (@Spec.capabilityNames q').map Prod.fst
    · obtain ⟨⟨n, c⟩, hc, e⟩ := List.mem_map.1 hm
      simp only at e
      subst e
      exact ⟨c, .known hc, .inl hc⟩
    · exact ⟨_, .same _, .inr (.inr ⟨ha, hm, h2, rfl⟩)⟩

theorem sub_spIf {b b' : Bool} (e : b = true → b' = true) : Sub (Grammar.Server.spIf b) (Grammar.Server.spIf b') :=
  Sub.ite e (Sub.refl _) (Sub.refl _) fun _ _ hw => .inl hw

theorem sim_eq {g g' : G α} (h : Sub g g') : Sim Eq g g' := sim_of_sub (fun _ => rfl) h

theorem sim_capabilityData : Sim (Spec.Pointwise (Spec.CapabilityKnown q')) (@Grammar.Server.capabilityData q) (@Grammar.Server.capabilityData q') := by
  refine Sim.word (Sim.bind (Sim.sepBy1 sim_capability) fun l l' hl => ?_)
  exact Sim.bind (sim_eq (sub_spIf h.trailingSpaceCapability)) fun _ _ _ => Sim.pure hl

theorem closed_capabilityData (p : Quirks) : Closed (@Grammar.Server.capabilityData p) := by
  have h1 : Closed (@Grammar.Server.capability p) := fun w v hw hm => by
    have := ((@capability_iff p _ _).1 hw).1.2 _ hm
    revert this
    decide
  have h2 : Closed Grammar.sp := Closed.lit (by decide)
  have h3 : Closed (Grammar.Server.spIf p.trailingSpaceCapability) := by
    unfold Grammar.Server.spIf
    split
    · rintro w v (⟨rfl, -⟩ | hw)
      · simp
      · exact h2 _ _ hw
    · exact Closed.pure
  unfold Grammar.Server.capabilityData
  closed <;> assumption

/-- A code that is not CAPABILITY. -/
theorem Sim.code {R : α → α → Prop} (hR : ∀ a, R a a) {g g' : G α} {gs gs' : List (G α)} (hg : Sub g g') (hs : Sim R (choice gs) (choice gs')) :
    Sim R (choice (g :: gs)) (choice (g' :: gs')) := Sim.cons (sim_of_sub hR hg) hs

theorem sim_respTextCode : Sim (Spec.CodeKnown q') (@Grammar.Server.respTextCode q) (@Grammar.Server.respTextCode q') := by
  unfold Grammar.Server.respTextCode
  refine Sim.code .same (Sub.refl _) (Sim.code .same (Sub.refl _) ?_)
  refine Sim.cons (Sim.map sim_capabilityData fun _ _ h => .capability h) ?_
  iterate 11 refine Sim.code .same (Sub.refl _) ?_
  refine Sim.code .same (Sub.onlyIf h.extMetadata (Sub.refl _)) ?_
  iterate 4 refine Sim.code .same (Sub.refl _) ?_
  exact Sim.code .same (Sub.onlyIf h.extCondstoreQresync (Sub.refl _)) (sim_of_sub .same (Sub.refl _))

/-- Each text of `g'` is a text of `g`, or contains no closing bracket. -/
def Back (g' g : G α) : Prop := ∀ w v, g' w v → (∃ v', g w v') ∨ 93 ∉ w

theorem Back.refl (g : G α) : Back g g := fun _ v hw => .inl ⟨v, hw⟩

theorem Back.cons {g g' : G α} {gs gs' : List (G α)} (hg : Back g' g) (hs : Back (choice gs') (choice gs)) : Back (choice (g' :: gs')) (choice (g :: gs)) := by
  rintro w v ⟨k, hk, hw⟩
  rcases List.mem_cons.1 hk with rfl | hk
  · rcases hg _ _ hw with ⟨c, hc⟩ | hc
    · exact .inl ⟨c, g, by simp, hc⟩
    · exact .inr hc
  · rcases hs _ _ ⟨k, hk, hw⟩ with ⟨c, k', hk', hc⟩ | hc
    · exact .inl ⟨c, k', by simp [hk'], hc⟩
    · exact .inr hc

/-- A code that is known only with more features contains no closing bracket. -/
theorem back_respTextCode : Back (@Grammar.Server.respTextCode q') (@Grammar.Server.respTextCode q) := by
  unfold Grammar.Server.respTextCode
  refine Back.cons (Back.refl _) (Back.cons (Back.refl _) ?_)
  refine Back.cons ?_ ?_
  · rintro w v ⟨l, hl, -⟩
    exact .inr (closed_capabilityData q' _ _ hl)
  iterate 11 refine Back.cons (Back.refl _) ?_
  refine Back.cons ?_ ?_
  · rintro w v ⟨-, hw⟩
    refine .inr ?_
    revert w v
    show Closed _
    closed
  iterate 4 refine Back.cons (Back.refl _) ?_
  refine Back.cons ?_ (Back.refl _)
  rintro w v ⟨-, hw⟩
  refine .inr ?_
  revert w v
  show Closed _
  have := closed_sequenceSet
  closed
  · exact closed_number64.such
  · exact this

/-! ### Texts -/

/-- The same code, or one that was unknown and is known; and the same text. -/
inductive TextKnown (q' : Quirks) : Option Code × Bytes → Option Code × Bytes → Prop
  | same (x) : TextKnown q' x x
  | code {c c' t} (h : Spec.CodeKnown q' c c') : TextKnown q' (some c, t) (some c', t)

theorem sub_afterCode : Sub (@Grammar.Server.afterCode q) (@Grammar.Server.afterCode q') := by
  unfold Grammar.Server.afterCode
  exact Sub.bind (Sub.refl _) fun _ => Sub.ite h.missingText (Sub.refl _) (Sub.refl _) fun _ _ hw => .inr hw

theorem sim_respText : Sim (TextKnown q') (@Grammar.Server.respText q) (@Grammar.Server.respText q') := by
  intro w v hw
  obtain ⟨g, hg, hw⟩ := hw
  simp only [List.mem_cons, List.not_mem_nil, or_false] at hg
  rcases hg with rfl | rfl | rfl
  · have : Sim (TextKnown q') (do lit b!"["; let c ← @Grammar.Server.respTextCode q; let t ← @Grammar.Server.afterCode q; return (some c, t) : G (Option Code × Bytes))
        (do lit b!"["; let c ← @Grammar.Server.respTextCode q'; let t ← @Grammar.Server.afterCode q'; return (some c, t)) := by
      refine Sim.word (Sim.bind sim_respTextCode fun c c' hc => Sim.bind (sim_eq sub_afterCode) ?_)
      rintro t _ rfl
      exact Sim.pure (.code hc)
    obtain ⟨v', hv, hw'⟩ := this _ _ hw
    exact ⟨v', hv, _, List.mem_cons_self .., hw'⟩
  · obtain ⟨hw, hn⟩ := hw
    by_cases hk : @Grammar.Server.StartsWithKnownCode q' w
    · obtain ⟨p, r, c, e, hc⟩ := hk
      have hp : 93 ∉ p := by
        rcases back_respTextCode (q := q) _ _ hc with ⟨c', hc'⟩ | hp
        · exact absurd ⟨p, r, c', e, hc'⟩ hn
        · exact hp
      obtain ⟨w1, _, _, rfl, h1, s, _, c0, rfl, ⟨rfl, hs⟩, w3, w4, t, rfl, h3, rfl, rfl⟩ := hw
      obtain ⟨w5, w6, _, rfl, h5, h6⟩ := sub_afterCode (q' := q') _ _ h3
      obtain rfl := symbol_eq (k := b!"[") (by decide) h1
      obtain rfl := symbol_eq (k := b!"]") (by decide) h5
      have e' : s ++ 93 :: w6 = p ++ 93 :: r := by simpa using e
      obtain ⟨rfl, rfl⟩ := split_closing (fun hm => hs _ hm (by decide)) hp e'
      refine ⟨(some c, t), .code (.known hc), _, List.mem_cons_self .., b!"[", _, (), rfl, rfl, s, _, c, rfl, hc, b!"]" ++ w6, [], t, rfl, ?_, rfl, rfl⟩
      exact ⟨_, _, (), rfl, rfl, h6⟩
    · refine ⟨v, .same v, _, List.mem_cons_of_mem _ (List.mem_cons_self ..), ?_, hk⟩
      have : Sub (do lit b!"["; let c ← Grammar.Server.otherCode; let t ← @Grammar.Server.afterCode q; return (some c, t) : G (Option Code × Bytes))
        (do lit b!"["; let c ← Grammar.Server.otherCode; let t ← @Grammar.Server.afterCode q'; return (some c, t)) := by
        have := sub_afterCode (q := q) (q' := q')
        sub
      exact this _ _ hw
  · exact ⟨v, .same v, _, List.mem_cons_of_mem _ (List.mem_cons_of_mem _ (List.mem_cons_self ..)), hw⟩

/-! ### Greetings, status responses and continuation requests -/

theorem sim_greeting : Sim (Spec.GreetingKnown q') (@Grammar.Server.greeting q) (@Grammar.Server.greeting q') := by
  unfold Grammar.Server.greeting
  refine Sim.word (Sim.bind (sim_eq (Sub.refl _)) ?_)
  rintro k _ rfl
  refine Sim.bind sim_respText fun x x' hx => ?_
  refine Sim.bind (sim_eq sub_crlf) fun _ _ _ => ?_
  cases hx with
  | same => exact Sim.pure (.same _)
  | code h => exact Sim.pure (.code h)

theorem sim_responseTagged : Sim (fun s s' => Spec.ResponseKnown q' (.status s) (.status s')) (@Grammar.Server.responseTagged q) (@Grammar.Server.responseTagged q') := by
  unfold Grammar.Server.responseTagged
  refine Sim.bind (sim_eq (Sub.refl _)) ?_
  rintro a _ rfl
  refine Sim.word (Sim.bind (sim_eq (Sub.refl _)) ?_)
  rintro k _ rfl
  refine Sim.bind sim_respText fun x x' hx => ?_
  refine Sim.bind (sim_eq sub_crlf) fun _ _ _ => ?_
  cases hx with
  | same => exact Sim.pure (.same _)
  | code h => exact Sim.pure (.tagged h)

theorem sim_continueReq : Sim (fun s s' => Spec.ResponseKnown q' (.continue_ s) (.continue_ s')) (@Grammar.Server.continueReq q) (@Grammar.Server.continueReq q') := by
  unfold Grammar.Server.continueReq
  refine Sim.cons (sim_of_sub (fun _ => .same _) (by sub)) (Sim.cons ?_ (Sim.cons (sim_of_sub (fun _ => .same _) ?_) (sim_of_sub (fun _ => .same _) (Sub.refl _))))
  · refine Sim.word (Sim.bind (R := TextKnown q') ?_ fun x x' hx => ?_)
    · rintro w v ⟨hw, hn⟩
      obtain ⟨v', hv, hw'⟩ := sim_respText (q := q) (q' := q') _ _ hw
      exact ⟨v', hv, hw', hn⟩
    · refine Sim.bind (sim_eq sub_crlf) fun _ _ _ => ?_
      cases hx with
      | same => exact Sim.pure (.same _)
      | code h => exact Sim.pure (.basic h)
  · refine Sub.bind (Sub.refl _) fun _ => Sub.bind sub_crlf fun _ => ?_
    exact Sub.ite h.emptyContinueReq (Sub.refl _) (Sub.refl _) (by rintro w v ⟨k, hk, -⟩; simp at hk)

/-! ### Data -/

theorem sub_address : Sub (@Grammar.Server.address q) (@Grammar.Server.address q') := by
  unfold Grammar.Server.address; dsimp only
  refine Sub.ite h.spacesBetweenAddresses (by sub) (by sub) fun w v hw => ⟨[], w, (), rfl, ⟨[], [], [], rfl, .nil, rfl, rfl⟩, ?_⟩
  revert w v
  show Sub _ _
  sub
macro_rules | `(tactic| sub_rule) => `(tactic| with_reducible exact sub_address)

theorem sub_addresses : Sub (@Grammar.Server.addresses q) (@Grammar.Server.addresses q') := by unfold Grammar.Server.addresses; sub
macro_rules | `(tactic| sub_rule) => `(tactic| with_reducible exact sub_addresses)

theorem sub_envelope : Sub (@Grammar.Server.envelope q) (@Grammar.Server.envelope q') := by unfold Grammar.Server.envelope; sub
macro_rules | `(tactic| sub_rule) => `(tactic| with_reducible exact sub_envelope)

theorem sub_bodyFldParam : Sub (@Grammar.Server.bodyFldParam q) (@Grammar.Server.bodyFldParam q') := by unfold Grammar.Server.bodyFldParam; sub
macro_rules | `(tactic| sub_rule) => `(tactic| with_reducible exact sub_bodyFldParam)

theorem sub_bodyFldEnc : Sub (@Grammar.Server.bodyFldEnc q) (@Grammar.Server.bodyFldEnc q') := by
  unfold Grammar.Server.bodyFldEnc
  exact Sub.ite h.bodyFldEncNilToEmpty (by sub) (by sub) fun w v hw => ⟨_, List.mem_cons_self .., sub_string _ _ hw⟩
macro_rules | `(tactic| sub_rule) => `(tactic| with_reducible exact sub_bodyFldEnc)

theorem sub_bodyFldOctets : Sub (@Grammar.Server.bodyFldOctets q) (@Grammar.Server.bodyFldOctets q') := by
  unfold Grammar.Server.bodyFldOctets
  exact Sub.ite h.rectifyNumbers (by sub) (by sub) fun w v hw => ⟨_, List.mem_cons_self .., hw⟩
macro_rules | `(tactic| sub_rule) => `(tactic| with_reducible exact sub_bodyFldOctets)

theorem sub_bodyFields : Sub (@Grammar.Server.bodyFields q) (@Grammar.Server.bodyFields q') := by unfold Grammar.Server.bodyFields; sub
macro_rules | `(tactic| sub_rule) => `(tactic| with_reducible exact sub_bodyFields)

theorem sub_bodyExtension (n : Nat) : Sub (@Grammar.Server.bodyExtension q n) (@Grammar.Server.bodyExtension q' n) := by
  induction n with
  | zero => unfold Grammar.Server.bodyExtension; exact Sub.refl _
  | succ n ih => unfold Grammar.Server.bodyExtension; sub
macro_rules | `(tactic| sub_rule) => `(tactic| with_reducible exact sub_bodyExtension _)

theorem sub_bodyFldDsp : Sub (@Grammar.Server.bodyFldDsp q) (@Grammar.Server.bodyFldDsp q') := by unfold Grammar.Server.bodyFldDsp; sub
macro_rules | `(tactic| sub_rule) => `(tactic| with_reducible exact sub_bodyFldDsp)

theorem sub_bodyFldLang : Sub (@Grammar.Server.bodyFldLang q) (@Grammar.Server.bodyFldLang q') := by unfold Grammar.Server.bodyFldLang; sub
macro_rules | `(tactic| sub_rule) => `(tactic| with_reducible exact sub_bodyFldLang)

theorem sub_extTail : Sub (@Grammar.Server.extTail q) (@Grammar.Server.extTail q') := by unfold Grammar.Server.extTail; sub
macro_rules | `(tactic| sub_rule) => `(tactic| with_reducible exact sub_extTail)

theorem sub_ext1part : Sub (@Grammar.Server.ext1part q) (@Grammar.Server.ext1part q') := by unfold Grammar.Server.ext1part; sub
macro_rules | `(tactic| sub_rule) => `(tactic| with_reducible exact sub_ext1part)

theorem sub_extMpart : Sub (@Grammar.Server.extMpart q) (@Grammar.Server.extMpart q') := by unfold Grammar.Server.extMpart; sub
macro_rules | `(tactic| sub_rule) => `(tactic| with_reducible exact sub_extMpart)

theorem sub_bodyUpTo (k n : Nat) : Sub (@Grammar.Server.bodyUpTo q k n) (@Grammar.Server.bodyUpTo q' k n) := by
  induction k generalizing n with
  | zero => unfold Grammar.Server.bodyUpTo; exact Sub.refl _
  | succ k ih =>
    match n with
    | 0 => unfold Grammar.Server.bodyUpTo; exact Sub.refl _
    | 1 => unfold Grammar.Server.bodyUpTo; exact Sub.refl _
    | n + 2 =>
      unfold Grammar.Server.bodyUpTo Grammar.Server.bodyMessage Grammar.Server.bodyText Grammar.Server.bodyBasic Grammar.Server.bodyMultipart
      have h1 := ih 7
      have h2 := ih (n + 1)
      sub

theorem sub_body : Sub (@Grammar.Server.body q) (@Grammar.Server.body q') := by
  rintro w v ⟨k, hw⟩
  exact ⟨k, sub_bodyUpTo _ _ _ _ hw⟩
macro_rules | `(tactic| sub_rule) => `(tactic| with_reducible exact sub_body)

theorem sub_msgAttItem : Sub (@Grammar.Server.msgAttItem q) (@Grammar.Server.msgAttItem q') := by
  unfold Grammar.Server.msgAttItem; sub
  exact Sub.onlyIf h.extCondstoreQresync (Sub.refl _)
macro_rules | `(tactic| sub_rule) => `(tactic| with_reducible exact sub_msgAttItem)

theorem sub_msgAtt : Sub (@Grammar.Server.msgAtt q) (@Grammar.Server.msgAtt q') := by unfold Grammar.Server.msgAtt; sub
macro_rules | `(tactic| sub_rule) => `(tactic| with_reducible exact sub_msgAtt)

theorem sub_mailboxList : Sub (@Grammar.Server.mailboxList q) (@Grammar.Server.mailboxList q') := by unfold Grammar.Server.mailboxList; sub
macro_rules | `(tactic| sub_rule) => `(tactic| with_reducible exact sub_mailboxList)

theorem sub_numbers : Sub (@Grammar.Server.numbers q) (@Grammar.Server.numbers q') := by
  unfold Grammar.Server.numbers; sub
  exact Sub.onlyIf h.extCondstoreQresync (Sub.refl _)
macro_rules | `(tactic| sub_rule) => `(tactic| with_reducible exact sub_numbers)

theorem sub_statusAttVal : Sub (@Grammar.Server.statusAttVal q) (@Grammar.Server.statusAttVal q') := by
  unfold Grammar.Server.statusAttVal; sub
  exact Sub.onlyIf h.extCondstoreQresync (Sub.refl _)
macro_rules | `(tactic| sub_rule) => `(tactic| with_reducible exact sub_statusAttVal)

theorem sub_namespaces : Sub (@Grammar.Server.namespaces q) (@Grammar.Server.namespaces q') := by unfold Grammar.Server.namespaces; sub
macro_rules | `(tactic| sub_rule) => `(tactic| with_reducible exact sub_namespaces)

theorem sub_quotaResource : Sub (@Grammar.Server.quotaResource q) (@Grammar.Server.quotaResource q') := by
  have : Sub (@Grammar.Server.quotaSp q) (@Grammar.Server.quotaSp q') :=
    Sub.ite h.excessiveSpaceQuotaResource (Sub.refl _) (Sub.refl _) fun w v hw =>
      ⟨w, [], [()], by simp, ⟨w, [], (), by simp, hw, [], [], [], rfl, .nil, rfl, rfl⟩, rfl, rfl⟩
  unfold Grammar.Server.quotaResource; sub
macro_rules | `(tactic| sub_rule) => `(tactic| with_reducible exact sub_quotaResource)

/-- Data that are not CAPABILITY or ENABLED. -/
theorem Sim.datum {g g' : G Data} {gs gs' : List (G Data)} (hg : Sub g g')
    (hs : Sim (fun d d' => Spec.ResponseKnown q' (.data d) (.data d')) (choice gs) (choice gs')) :
    Sim (fun d d' => Spec.ResponseKnown q' (.data d) (.data d')) (choice (g :: gs)) (choice (g' :: gs')) := Sim.cons (sim_of_sub (fun _ => .same _) hg) hs

theorem sim_data : Sim (fun d d' => Spec.ResponseKnown q' (.data d) (.data d')) (@Grammar.Server.data q) (@Grammar.Server.data q') := by
  unfold Grammar.Server.data
  refine Sim.datum (Sub.refl _) (Sim.datum (by sub) (Sim.datum (by sub) ?_))
  refine Sim.datum (by have := sub_spIf h.trailingSpaceSearch; sub) (Sim.datum (by sub) (Sim.datum (Sub.refl _) ?_))
  refine Sim.datum (by have := sub_spIf h.trailingSpaceStatus; sub) ?_
  refine Sim.datum (Sub.onlyIf h.extMetadata (by sub)) (Sim.datum (Sub.onlyIf h.extNamespace (by sub)) ?_)
  refine Sim.datum (Sub.refl _) (Sim.datum (Sub.refl _) (Sim.datum (by sub) (Sim.datum (by sub) (Sim.datum (Sub.refl _) (Sim.datum (by sub) ?_)))))
  refine Sim.datum (Sub.onlyIf h.extCondstoreQresync (Sub.refl _)) ?_
  refine Sim.cons (Sim.map sim_capabilityData fun _ _ h => .capability h) ?_
  refine Sim.cons (Sim.map (Sim.word (Sim.star (Sim.word sim_enableName))) fun _ _ h => .enabled h) ?_
  exact Sim.datum (Sub.onlyIf h.extId (by sub)) (sim_of_sub (fun _ => .same _) (Sub.refl _))

theorem sim_responseData : Sim (Spec.ResponseKnown q') (@Grammar.Server.responseData q) (@Grammar.Server.responseData q') := by
  unfold Grammar.Server.responseData
  refine Sim.word (Sim.bind (R := Spec.ResponseKnown q') ?_ fun r r' hr => Sim.bind (sim_eq sub_crlf) fun _ _ _ => Sim.pure hr)
  refine Sim.cons ?_ (Sim.cons ?_ (Sim.cons (Sim.map sim_data fun _ _ h => h) (sim_of_sub .same (Sub.refl _))))
  · refine Sim.bind (sim_eq (Sub.refl _)) ?_
    rintro k _ rfl
    refine Sim.bind sim_respText fun x x' hx => ?_
    cases hx with
    | same => exact Sim.pure (.same _)
    | code h => exact Sim.pure (.untagged h)
  · refine Sim.word (Sim.bind sim_respText fun x x' hx => ?_)
    cases hx with
    | same => exact Sim.pure (.same _)
    | code h => exact Sim.pure (.bye h)

theorem sim_response : Sim (Spec.ResponseKnown q') (@Grammar.Server.response q) (@Grammar.Server.response q') :=
  Sim.cons (Sim.map sim_continueReq fun _ _ h => h) (Sim.cons sim_responseData (Sim.cons (Sim.map sim_responseTagged fun _ _ h => h)
    (sim_of_sub .same (Sub.refl _))))

end

end Imap.Gr
