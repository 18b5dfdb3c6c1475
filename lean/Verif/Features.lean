import Verif.FeaturesSpec
import Verif.GrammarLemmas
import Verif.Props.Names
/-
What a build derives from the formal syntax, a build with more features derives as well.
-/
set_option maxRecDepth 10000

namespace Imap.Gr

open Imap.Grammar (G Star choice onlyIf optD sepBy1 sepBy0 such token octets named lit is plus)
open Imap.Spec (Extends)

variable {α β γ δ : Type}

/-- Each text of `g` is a text of `g'`, and denotes the same. -/
def Sub (g g' : G α) : Prop := ∀ w v, g w v → g' w v

/-- Each text of `g` is a text of `g'`, and denotes something related. -/
def Sim (R : α → β → Prop) (g : G α) (g' : G β) : Prop := ∀ w v, g w v → ∃ v', R v v' ∧ g' w v'

theorem Sub.refl (g : G α) : Sub g g := fun _ _ h => h

theorem Sub.bind {g g' : G α} {f f' : α → G β} (h : Sub g g') (hf : ∀ a, Sub (f a) (f' a)) : Sub (g >>= f) (g' >>= f') := by
  rintro w v ⟨w1, w2, a, e, h1, h2⟩
  exact ⟨w1, w2, a, e, h _ _ h1, hf _ _ _ h2⟩

theorem Sub.map {g g' : G α} {f : α → β} (h : Sub g g') : Sub (f <$> g) (f <$> g') := by
  rintro w v ⟨a, h1, e⟩
  exact ⟨a, h _ _ h1, e⟩

theorem Sub.cons {g g' : G α} {gs gs' : List (G α)} (h : Sub g g') (hs : Sub (choice gs) (choice gs')) : Sub (choice (g :: gs)) (choice (g' :: gs')) := by
  rintro w v ⟨k, hk, hw⟩
  rcases List.mem_cons.1 hk with rfl | hk
  · exact ⟨g', by simp, h _ _ hw⟩
  · obtain ⟨k', hk', hw'⟩ := hs _ _ ⟨k, hk, hw⟩
    exact ⟨k', by simp [hk'], hw'⟩

theorem Sub.onlyIf {g g' : G α} {b b' : Bool} (hb : b = true → b' = true) (h : Sub g g') : Sub (onlyIf b g) (onlyIf b' g') :=
  fun _ _ hw => ⟨hb hw.1, h _ _ hw.2⟩

theorem Sub.opt {g g' : G α} (h : Sub g g') : Sub (Grammar.opt g) (Grammar.opt g') := by
  rintro w v (h1 | ⟨a, h1, e⟩)
  · exact .inl h1
  · exact .inr ⟨a, h _ _ h1, e⟩

theorem Sub.optD {g g' : G α} {d : α} (h : Sub g g') : Sub (optD d g) (optD d g') := by
  rintro w v (h1 | h1)
  · exact .inl h1
  · exact .inr (h _ _ h1)

theorem Sub.star {g g' : G α} (h : Sub g g') : Sub (Star g) (Star g') := by
  intro w v hw
  induction hw with
  | nil => exact .nil
  | cons h1 _ ih => exact .cons (h _ _ h1) ih

theorem Sub.plus {g g' : G α} (h : Sub g g') : Sub (plus g) (plus g') := Sub.bind h fun _ => Sub.bind (Sub.star h) fun _ => Sub.refl _
theorem Sub.sepBy1 {s s' : G Unit} {g g' : G α} (hs : Sub s s') (h : Sub g g') : Sub (sepBy1 s g) (sepBy1 s' g') :=
  Sub.bind h fun _ => Sub.bind (Sub.star (Sub.bind hs fun _ => h)) fun _ => Sub.refl _
theorem Sub.sepBy0 {s s' : G Unit} {g g' : G α} (hs : Sub s s') (h : Sub g g') : Sub (sepBy0 s g) (sepBy0 s' g') := Sub.optD (Sub.sepBy1 hs h)
theorem Sub.parens {g g' : G α} (h : Sub g g') : Sub (Grammar.parens g) (Grammar.parens g') :=
  Sub.bind (Sub.refl _) fun _ => Sub.bind h fun _ => Sub.refl _
theorem Sub.ite {g g' k k' : G α} {b b' : Bool} (e : b = true → b' = true) (h : Sub g g') (h' : Sub k k') (hk : Sub k g') :
    Sub (if b then g else k) (if b' then g' else k') := by
  cases b <;> cases b'
  · exact h'
  · exact hk
  · exact absurd (e rfl) (by decide)
  · exact h

/-- The rules that were proved already. -/
syntax "sub_rule" : tactic
macro_rules | `(tactic| sub_rule) => `(tactic| fail)

/-- Goes through a grammar. -/
macro "sub" : tactic => `(tactic| repeat' first
  | with_reducible exact Sub.refl _
  | assumption
  | sub_rule
  | with_reducible refine Sub.map ?_
  | with_reducible refine Sub.cons ?_ ?_
  | with_reducible refine Sub.opt ?_
  | with_reducible refine Sub.optD ?_
  | with_reducible refine Sub.star ?_
  | with_reducible refine Sub.plus ?_
  | with_reducible refine Sub.sepBy1 ?_ ?_
  | with_reducible refine Sub.sepBy0 ?_ ?_
  | with_reducible refine Sub.parens ?_
  | with_reducible refine Sub.bind ?_ fun _ => ?_)

section
variable {q q' : Quirks} [h : Extends q q']

theorem sub_crlf : Sub (@Grammar.crlf q) (@Grammar.crlf q') := by
  intro w v hw
  exact hw.imp id fun hw => ⟨h.crlfRelaxed hw.1, hw.2⟩
macro_rules | `(tactic| sub_rule) => `(tactic| with_reducible exact sub_crlf)

theorem sub_literal : Sub (@Grammar.literal q) (@Grammar.literal q') := by unfold Grammar.literal; sub
macro_rules | `(tactic| sub_rule) => `(tactic| with_reducible exact sub_literal)

theorem sub_literal8 : Sub (@Grammar.literal8 q) (@Grammar.literal8 q') := by unfold Grammar.literal8; sub
macro_rules | `(tactic| sub_rule) => `(tactic| with_reducible exact sub_literal8)

theorem sub_string : Sub (@Grammar.string q) (@Grammar.string q') := by
  unfold Grammar.string; sub
  exact Sub.onlyIf h.extUtf8 (Sub.refl _)
macro_rules | `(tactic| sub_rule) => `(tactic| with_reducible exact sub_string)

theorem sub_astring : Sub (@Grammar.astring q) (@Grammar.astring q') := by unfold Grammar.astring; sub
macro_rules | `(tactic| sub_rule) => `(tactic| with_reducible exact sub_astring)

theorem sub_nstring : Sub (@Grammar.nstring q) (@Grammar.nstring q') := by unfold Grammar.nstring; sub
macro_rules | `(tactic| sub_rule) => `(tactic| with_reducible exact sub_nstring)

theorem sub_mailbox : Sub (@Grammar.mailbox q) (@Grammar.mailbox q') := by unfold Grammar.mailbox; sub
macro_rules | `(tactic| sub_rule) => `(tactic| with_reducible exact sub_mailbox)

theorem sub_listMailbox : Sub (@Grammar.listMailbox q) (@Grammar.listMailbox q') := by unfold Grammar.listMailbox; sub
macro_rules | `(tactic| sub_rule) => `(tactic| with_reducible exact sub_listMailbox)

theorem sub_statusAtt : Sub (@Grammar.statusAtt q) (@Grammar.statusAtt q') := by
  unfold Grammar.statusAtt; sub
  exact Sub.onlyIf h.extCondstoreQresync (Sub.refl _)
macro_rules | `(tactic| sub_rule) => `(tactic| with_reducible exact sub_statusAtt)

theorem sub_searchKey (n : Nat) : Sub (@Grammar.searchKey q n) (@Grammar.searchKey q' n) := by
  induction n with
  | zero => unfold Grammar.searchKey; exact Sub.refl _
  | succ n ih =>
    unfold Grammar.searchKey; sub
    exact Sub.onlyIf h.extCondstoreQresync (Sub.refl _)

theorem sub_searchKeys : Sub (@Grammar.searchKeys q) (@Grammar.searchKeys q') :=
  Sub.sepBy1 (Sub.refl _) (sub_searchKey 9)
macro_rules | `(tactic| sub_rule) => `(tactic| with_reducible exact sub_searchKeys)

theorem sub_headerList : Sub (@Grammar.headerList q) (@Grammar.headerList q') := by unfold Grammar.headerList; sub
macro_rules | `(tactic| sub_rule) => `(tactic| with_reducible exact sub_headerList)

theorem sub_sectionMsgtext (p : Option (List NzU32)) : Sub (@Grammar.sectionMsgtext q p) (@Grammar.sectionMsgtext q' p) := by
  unfold Grammar.sectionMsgtext; sub
macro_rules | `(tactic| sub_rule) => `(tactic| with_reducible exact sub_sectionMsgtext _)

theorem sub_sectionSpec : Sub (@Grammar.sectionSpec q) (@Grammar.sectionSpec q') := by unfold Grammar.sectionSpec; sub
macro_rules | `(tactic| sub_rule) => `(tactic| with_reducible exact sub_sectionSpec)

theorem sub_section : Sub (@Grammar.section q) (@Grammar.section q') := by unfold Grammar.section; sub
macro_rules | `(tactic| sub_rule) => `(tactic| with_reducible exact sub_section)

theorem sub_fetchAtt : Sub (@Grammar.fetchAtt q) (@Grammar.fetchAtt q') := by
  unfold Grammar.fetchAtt; sub
  exact Sub.onlyIf h.extCondstoreQresync (Sub.refl _)
macro_rules | `(tactic| sub_rule) => `(tactic| with_reducible exact sub_fetchAtt)

theorem sub_fetchItems : Sub (@Grammar.fetchItems q) (@Grammar.fetchItems q') := by unfold Grammar.fetchItems; sub
macro_rules | `(tactic| sub_rule) => `(tactic| with_reducible exact sub_fetchItems)

theorem sub_imapValue : Sub (@Grammar.imapValue q) (@Grammar.imapValue q') := by unfold Grammar.imapValue; sub
macro_rules | `(tactic| sub_rule) => `(tactic| with_reducible exact sub_imapValue)

theorem sub_selectParams : Sub (@Grammar.selectParams q) (@Grammar.selectParams q') :=
  Sub.onlyIf h.extCondstoreQresync (Sub.refl _)
macro_rules | `(tactic| sub_rule) => `(tactic| with_reducible exact sub_selectParams)

theorem sub_idParams : Sub (@Grammar.idParams q) (@Grammar.idParams q') := by
  unfold Grammar.idParams; sub
  exact Sub.ite h.trailingSpaceId (Sub.refl _) (Sub.refl _) fun w v hw => ⟨[], w, (), rfl, .inl ⟨rfl, rfl⟩, hw⟩
macro_rules | `(tactic| sub_rule) => `(tactic| with_reducible exact sub_idParams)

/-! ### Commands -/

theorem sim_of_sub {R : α → α → Prop} (hR : ∀ a, R a a) {g g' : G α} (h : Sub g g') : Sim R g g' := fun _ v hw => ⟨v, hR v, h _ _ hw⟩

theorem Sim.star {R : α → β → Prop} {g : G α} {g' : G β} (h : Sim R g g') : Sim (Spec.Pointwise R) (Star g) (Star g') := by
  intro w v hw
  induction hw with
  | nil => exact ⟨[], .nil, .nil⟩
  | cons h1 _ ih =>
    obtain ⟨a, ha, h2⟩ := h _ _ h1
    obtain ⟨l, hl, h3⟩ := ih
    exact ⟨a :: l, .cons ha hl, .cons h2 h3⟩

theorem Sim.bind {R : α → β → Prop} {S : γ → δ → Prop} {g : G α} {g' : G β} {f : α → G γ} {f' : β → G δ} (h : Sim R g g')
    (hf : ∀ a b, R a b → Sim S (f a) (f' b)) : Sim S (g >>= f) (g' >>= f') := by
  rintro w v ⟨w1, w2, a, e, h1, h2⟩
  obtain ⟨b, hb, h3⟩ := h _ _ h1
  obtain ⟨c, hc, h4⟩ := hf _ _ hb _ _ h2
  exact ⟨c, hc, w1, w2, b, e, h3, h4⟩

theorem Sim.word {S : γ → δ → Prop} {k : G Unit} {f : Unit → G γ} {f' : Unit → G δ} (hf : Sim S (f ()) (f' ())) : Sim S (k >>= f) (k >>= f') :=
  Sim.bind (R := fun _ _ => True) (fun _ _ hw => ⟨_, trivial, hw⟩) fun _ _ _ => hf

theorem Sim.pure {S : γ → δ → Prop} {a : γ} {b : δ} (h : S a b) : Sim S (Pure.pure a) (Pure.pure b) := by
  rintro w v ⟨rfl, rfl⟩
  exact ⟨b, h, rfl, rfl⟩

theorem Sim.map {R : α → β → Prop} {S : γ → δ → Prop} {g : G α} {g' : G β} {f : α → γ} {f' : β → δ} (h : Sim R g g') (hf : ∀ a b, R a b → S (f a) (f' b)) :
    Sim S (f <$> g) (f' <$> g') := by
  rintro w v ⟨a, h1, rfl⟩
  obtain ⟨b, hb, h2⟩ := h _ _ h1
  exact ⟨_, hf _ _ hb, b, h2, rfl⟩

theorem Sim.cons {R : α → β → Prop} {g : G α} {g' : G β} {gs : List (G α)} {gs' : List (G β)} (h : Sim R g g') (hs : Sim R (choice gs) (choice gs')) :
    Sim R (choice (g :: gs)) (choice (g' :: gs')) := by
  rintro w v ⟨k, hk, hw⟩
  rcases List.mem_cons.1 hk with rfl | hk
  · obtain ⟨v', hv, hw'⟩ := h _ _ hw
    exact ⟨v', hv, g', by simp, hw'⟩
  · obtain ⟨v', hv, k', hk', hw'⟩ := hs _ _ ⟨k, hk, hw⟩
    exact ⟨v', hv, k', by simp [hk'], hw'⟩

theorem Sim.plus {R : α → β → Prop} {g : G α} {g' : G β} (h : Sim R g g') : Sim (Spec.Pointwise R) (plus g) (plus g') :=
  Sim.bind h fun _ _ h1 => Sim.bind (Sim.star h) fun _ _ h2 => Sim.pure (.cons h1 h2)

theorem Sim.sepBy1 {R : α → β → Prop} {g : G α} {g' : G β} {s : G Unit} (h : Sim R g g') : Sim (Spec.Pointwise R) (sepBy1 s g) (sepBy1 s g') :=
  Sim.bind h fun _ _ h1 => Sim.bind (Sim.star (Sim.word h)) fun _ _ h2 => Sim.pure (.cons h1 h2)

theorem enableNames_mono {x : Bytes × CapabilityEnable} (hx : x ∈ @Spec.enableNames q) : x ∈ @Spec.enableNames q' := by
  replace hx := (@mem_enableNames q _).1 hx
  refine (@mem_enableNames q' _).2 ⟨hx.1, ?_⟩
  obtain ⟨n, c⟩ := x
  have := hx.2
  cases c <;> simp only [CapabilityEnable.present] at this ⊢
  all_goals first | exact h.extCondstoreQresync this | exact h.extMetadata this | exact h.extUtf8 this

theorem capabilityNames_mono {x : Bytes × Capability} (hx : x ∈ @Spec.capabilityNames q) : x ∈ @Spec.capabilityNames q' := by
  replace hx := (@mem_capabilityNames q _).1 hx
  refine (@mem_capabilityNames q' _).2 ⟨hx.1, ?_⟩
  obtain ⟨n, c⟩ := x
  have := hx.2
  cases c <;> simp only [Capability.present] at this ⊢
  all_goals first | exact h.extCondstoreQresync this | exact h.extMetadata this | exact h.extUtf8 this | exact h.starttls this | exact h.extMailboxReferrals this | exact h.extLoginReferrals this | exact h.extId this | exact h.extNamespace this

theorem sim_enableName : Sim (Spec.EnableKnown q') (named (@Spec.enableNames q) .other) (named (@Spec.enableNames q') .other) := by
  rintro w v ⟨ha, h1 | ⟨h1, rfl⟩⟩
  · exact ⟨v, .same v, ha, .inl (enableNames_mono h1)⟩
  · by_cases hm : lowerAll w ∈ (@Spec.enableNames q').map Prod.fst
    · obtain ⟨⟨n, c⟩, hc, e⟩ := List.mem_map.1 hm
      simp only at e
      subst e
      exact ⟨c, .known hc, ha, .inl hc⟩
    · exact ⟨_, .same _, ha, .inr ⟨hm, rfl⟩⟩

/-- The same body, or one with names after ENABLE that are known. -/
inductive BodyKnown (q' : Quirks) : CommandBody → CommandBody → Prop
  | same (c) : BodyKnown q' c c
  | enable {l l'} (h : Spec.Pointwise (Spec.EnableKnown q') l l') : BodyKnown q' (.enable l) (.enable l')

theorem sim_enable : Sim (BodyKnown q') (@Grammar.enable q) (@Grammar.enable q') :=
  Sim.map (Sim.word (Sim.plus (Sim.word sim_enableName))) fun _ _ h => .enable h

theorem sub_fetch : Sub (@Grammar.fetch q) (@Grammar.fetch q') := by
  unfold Grammar.fetch; sub
  exact Sub.onlyIf h.extCondstoreQresync (Sub.refl _)

theorem sub_store : Sub (@Grammar.store q) (@Grammar.store q') := by
  unfold Grammar.store; sub
  exact Sub.onlyIf h.extCondstoreQresync (Sub.refl _)

/-- An alternative that is not ENABLE. -/
theorem Sim.alt {g g' : G CommandBody} {gs gs' : List (G CommandBody)} (hg : Sub g g') (hs : Sim (BodyKnown q') (choice gs) (choice gs')) :
    Sim (BodyKnown q') (choice (g :: gs)) (choice (g' :: gs')) := Sim.cons (sim_of_sub .same hg) hs

theorem sim_commandBody : Sim (BodyKnown q') (@Grammar.commandBody q) (@Grammar.commandBody q') := by
  unfold Grammar.commandBody
  refine Sim.alt (Sub.refl _) (Sim.alt (Sub.refl _) (Sim.alt (Sub.refl _) ?_))
  refine Sim.alt (Sub.onlyIf h.extId (by sub)) ?_
  refine Sim.alt (by unfold Grammar.append; sub) ?_
  refine Sim.alt (by sub) (Sim.alt (by sub) ?_)
  refine Sim.alt (by unfold Grammar.examine; sub) ?_
  refine Sim.alt (by unfold Grammar.list; sub) ?_
  refine Sim.alt (by unfold Grammar.lsub; sub) ?_
  refine Sim.alt (by unfold Grammar.rename; sub) ?_
  refine Sim.alt (by unfold Grammar.select; sub) ?_
  refine Sim.alt (by unfold Grammar.status; sub) ?_
  refine Sim.alt (by sub) (Sim.alt (by sub) (Sim.alt (Sub.refl _) ?_))
  refine Sim.cons sim_enable ?_
  refine Sim.alt (Sub.refl _) (Sim.alt (by sub) (Sim.alt (by sub) ?_))
  refine Sim.alt (by unfold Grammar.setquota; sub) ?_
  refine Sim.alt (Sub.onlyIf h.extMetadata (by unfold Grammar.setmetadata; sub)) ?_
  refine Sim.alt (Sub.onlyIf h.extMetadata (by unfold Grammar.getmetadata; sub)) ?_
  refine Sim.alt (Sub.onlyIf h.extNamespace (Sub.refl _)) ?_
  refine Sim.alt (by unfold Grammar.login; sub) ?_
  refine Sim.alt (Sub.refl _) ?_
  refine Sim.alt (Sub.onlyIf h.starttls (Sub.refl _)) ?_
  refine Sim.alt (Sub.refl _) (Sim.alt (Sub.refl _) (Sim.alt (Sub.refl _) ?_))
  refine Sim.alt (by unfold Grammar.copy; sub) ?_
  refine Sim.alt sub_fetch (Sim.alt sub_store ?_)
  refine Sim.alt (by unfold Grammar.search; sub) ?_
  refine Sim.alt (Sub.refl _) ?_
  refine Sim.alt (by unfold Grammar.sort; sub) ?_
  refine Sim.alt (by unfold Grammar.thread; sub) ?_
  refine Sim.alt (Sub.refl _) ?_
  refine Sim.alt (by unfold Grammar.move; sub) ?_
  exact sim_of_sub .same (Sub.refl _)

theorem sim_command : Sim (Spec.CommandKnown q') (@Grammar.command q) (@Grammar.command q') := by
  unfold Grammar.command
  refine Sim.bind (sim_of_sub (R := Eq) (fun _ => rfl) (Sub.refl _)) ?_
  rintro t _ rfl
  refine Sim.word (Sim.bind sim_commandBody fun b b' hb => ?_)
  refine Sim.bind (sim_of_sub (R := Eq) (fun _ => rfl) sub_crlf) ?_
  rintro _ _ rfl
  refine Sim.pure ?_
  cases hb with
  | same => exact .same _
  | enable h => exact .enable h

theorem sub_authenticateData : Sub (@Grammar.authenticateData q) (@Grammar.authenticateData q') := by unfold Grammar.authenticateData; sub
theorem sub_idleDone : Sub (@Grammar.idleDone q) (@Grammar.idleDone q') := by unfold Grammar.idleDone; sub

end

end Imap.Gr
