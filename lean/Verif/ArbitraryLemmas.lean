import Verif.Arbitrary
import Verif.ArbitrarySpec
import Verif.WellFormedLemmas
import Verif.ResponsePost
import Verif.Props.Printing
set_option maxRecDepth 10000
/-! What the generators of Verif/Arbitrary.lean can return. -/
namespace Imap.Arb
open Imap.Spec

/-- The generator does not panic, and all values that it returns have the property. -/
def Sat {α : Type} (g : Gen α) (P : α → Prop) : Prop := ¬ g .panicked ∧ ∀ a, g (.ok a) → P a

section rules
variable {α β : Type} {g : Gen α} {P Q : α → Prop}

theorem Sat.mono (h : Sat g P) (hq : ∀ a, P a → Q a) : Sat g Q := ⟨h.1, fun a ha => hq a (h.2 a ha)⟩

theorem Sat.pure {a : α} (h : P a) : Sat (pure a) P := by
  refine ⟨fun e => ?_, fun b e => ?_⟩
  · cases (show Made.panicked = Made.ok a from e)
  · cases (show Made.ok b = Made.ok a from e)
    exact h

theorem Sat.bind {f : α → Gen β} {R : β → Prop} (h : Sat g P) (hf : ∀ a, P a → Sat (f a) R) : Sat (g >>= f) R := by
  refine ⟨?_, ?_⟩
  · rintro (⟨a, ha, hp⟩ | ⟨_, e⟩ | ⟨hp, _⟩)
    · exact (hf a (h.2 a ha)).1 hp
    · cases e
    · exact h.1 hp
  · rintro b (⟨a, ha, hp⟩ | ⟨_, e⟩ | ⟨hp, e⟩)
    · exact (hf a (h.2 a ha)).2 b hp
    · cases e
    · cases e

theorem Sat.intIn {lo hi : Nat} {f : Nat → Gen β} {R : β → Prop} (hf : ∀ n, lo ≤ n → n ≤ hi → Sat (f n) R) : Sat (intIn lo hi >>= f) R := by
  refine Sat.bind (P := fun n => lo ≤ n ∧ n ≤ hi) ?_ fun n h => hf n h.1 h.2
  refine ⟨?_, ?_⟩
  · rintro (e | ⟨a, e, _⟩) <;> cases e
  · rintro b (e | ⟨a, e, h⟩) <;> cases e
    exact h

theorem Sat.fail : Sat (fail : Gen α) P := ⟨fun e => (by cases e), fun a e => by cases e⟩

theorem Sat.any (p : α → Prop) : Sat (any p) p := by
  refine ⟨?_, ?_⟩
  · rintro (e | ⟨a, e, _⟩) <;> cases e
  · rintro b (e | ⟨a, e, h⟩) <;> cases e
    exact h

theorem Sat.oneOf {l : List (Gen α)} (h : ∀ g ∈ l, Sat g P) : Sat (oneOf l) P :=
  ⟨fun ⟨g, hg, hp⟩ => (h g hg).1 hp, fun a ⟨g, hg, hp⟩ => (h g hg).2 a hp⟩

theorem Sat.onlyIf {b : Bool} (h : b = true → Sat g P) : Sat (onlyIf b g) P := ⟨fun hp => (h hp.1).1 hp.2, fun a hp => (h hp.1).2 a hp.2⟩

theorem Sat.field {b : Bool} {a : α} (h0 : P a) (h : b = true → Sat g P) : Sat (field b a g) P := by
  unfold Arb.field
  split
  · exact h (by assumption)
  · exact .pure h0

theorem Sat.of {ε : Type} {m : Made ε α} (hp : m ≠ .panicked) (h : ∀ a, m = .ok a → P a) : Sat (of m) P := by
  cases m with
  | ok a => exact Sat.pure (h a rfl)
  | err e => exact ⟨fun e => (by cases e), fun a e => by cases e⟩
  | panicked => exact absurd rfl hp

theorem Sat.unwrap {ε : Type} {m : Made ε α} {a : α} (e : m = .ok a) (h : P a) : Sat (unwrap m) P := by
  subst e
  exact Sat.pure h

end rules

/-- The property that the values of a generator have, found by the search for instances. -/
class Has {α : Type} (g : Gen α) (P : outParam (α → Prop)) : Prop where
  sat : Sat g P

section basics
variable {α : Type}

instance (p : α → Prop) : Has (any p) p := ⟨.any p⟩
instance (lo hi : Nat) : Has (intIn lo hi) fun n => lo ≤ n ∧ n ≤ hi := ⟨.any _⟩
instance : Has u32 fun n => n < 2 ^ 32 := ⟨.any _⟩
instance : Has u64 fun n => n < 2 ^ 64 := ⟨.any _⟩
instance : Has nz32 NZ32 := ⟨.any _⟩
instance : Has nz64 NZ64 := ⟨.any _⟩
instance : Has bool fun _ => True := ⟨.any _⟩
instance : Has char fun _ => True := ⟨.any _⟩

instance {g : Gen α} {P : α → Prop} [h : Has g P] : Has (opt g) (Opt P) := ⟨by
  unfold opt
  refine .bind (Has.sat (g := bool)) fun b _ => ?_
  cases b with
  | false => exact .pure fun a ha => by cases ha
  | true => exact .bind h.sat fun a ha => .pure fun b hb => by cases hb; exact ha⟩

theorem Sat.times {g : Gen α} {P : α → Prop} (h : Sat g P) : ∀ n, Sat (times g n) (All P)
  | 0 => .pure (by simp [All])
  | n + 1 => .bind h fun a ha => .bind (Sat.times h n) fun l hl => .pure (by
      intro b hb
      rcases List.mem_cons.1 hb with rfl | hb
      · exact ha
      · exact hl b hb)

theorem Sat.vec {g : Gen α} {P : α → Prop} (h : Sat g P) : Sat (vec g) (All P) :=
  .bind (Has.sat (g := Arb.any fun _ => True)) fun n _ => Sat.times h n

instance {g : Gen α} {P : α → Prop} [h : Has g P] : Has (vec g) (All P) := ⟨.vec h.sat⟩

theorem vecN_ok {n : Nat} {l l' : List α} (h : VecN.tryFrom n l = .ok l') : l' = l ∧ n ≤ l.length := by
  unfold VecN.tryFrom at h
  split at h
  · cases h
  · cases h
    exact ⟨rfl, by omega⟩

theorem vecN_of {n : Nat} {l : List α} (h : n ≤ l.length) : VecN.tryFrom n l = .ok l := by
  unfold VecN.tryFrom
  rw [if_neg (by omega)]

instance {g : Gen α} {P : α → Prop} [h : Has g P] : Has (vec1 g) (All1 P) := ⟨by
  refine .bind (Has.sat (g := vec g)) fun l hl => .of ?_ ?_
  · unfold VecN.tryFrom
    split <;> simp
  · intro l' e
    obtain ⟨rfl, hn⟩ := vecN_ok e
    exact ⟨fun e => by simp [e] at hn, hl⟩⟩

theorem Sat.nonEmptyOr {l : List α} {leaf : Gen α} {P : α → Prop} (hl : All P l) (h : Sat leaf P) : Sat (nonEmptyOr l leaf) (All1 P) := by
  unfold Arb.nonEmptyOr
  split
  · exact .bind h fun a ha => .pure ⟨by simp, by simpa using ha⟩
  · rename_i hn
    have : l ≠ [] := by simpa using hn
    exact .unwrap (vecN_of (List.length_pos_iff.2 this)) ⟨this, hl⟩

end basics

/-- A level and a number of random bytes for which the values are shown to be valid. -/
class Lvl [Entropy] where
  L : Level
  notLine : L ≠ .line
  small : L = .rt → Entropy.size < 2 ^ 32

export Lvl (L)

/-- Closes goals `Sat (do ...) P` whose parts have instances. -/
macro "sat_step" : tactic => `(tactic| first
  | with_reducible exact Sat.fail
  | with_reducible refine Sat.pure ?_
  | with_reducible refine Sat.onlyIf fun _ => ?_
  | with_reducible refine Sat.bind Has.sat fun _ _ => ?_
  | with_reducible exact Has.sat)

/-- All variants of an enum. -/
macro "variants" : tactic => `(tactic| (
  refine Sat.oneOf ?_
  repeat' with_reducible refine List.forall_mem_cons.2 ⟨?_, ?_⟩
  all_goals first | (intro _ h; cases h; done) | skip
  all_goals repeat' sat_step))

/-- Conjunctions of hypotheses. -/
macro "parts" : tactic => `(tactic| (
  repeat' with_reducible apply And.intro
  all_goals first | assumption | trivial | exact And.left (by assumption)))

/-- The case `_ => unreachable!()`. -/
macro "impossible" : tactic => `(tactic| (exfalso; simp only [imp_false] at *; omega))

/-- Conversions of texts. -/
theorem Sat.ofText {α : Type} {acc : Bytes → Prop} {valid : α → Prop} {print : α → Bytes} {parse : Bytes → Made ValidationError α}
    (h : TextForm acc valid print parse) (v : Bytes) : Sat (Arb.of (parse v)) valid := by
  refine .of (fun e => ?_) fun a ha => (h.faithful v a ha).1
  by_cases hv : acc v
  · obtain ⟨a, ha⟩ := (h.accepts v).2 hv
    rw [ha] at e
    cases e
  · obtain ⟨_, ha⟩ := h.rejects v hv
    rw [ha] at e
    cases e

section
variable [e : Entropy]

theorem lift [l : Lvl] {p : Level → Prop} (h : p .rt) (m : p .rt → p .inv) : p L := by
  rcases hl : l.L with _ | _ | _
  · exact m h
  · exact h
  · exact absurd hl l.notLine

instance : Has bytes fun s => s.length ≤ e.size := ⟨.any _⟩
instance : Has str fun s => s.length ≤ e.size ∧ isUtf8 s = true := ⟨.any _⟩

omit e in
theorem validates1_ok {α : Type} {c : UInt8 → Prop} {mk : Bytes → α} {f : Bytes → Made ValidationError α} (h : Validates1 c mk f) (v : Bytes) :
    f v ≠ .panicked ∧ ∀ a, f v = .ok a → a = mk v ∧ Str1 c v := by
  by_cases hv : Str1 c v
  · rw [(h.2 v).1 hv]
    exact ⟨by simp, fun a e => by cases e; exact ⟨rfl, hv⟩⟩
  · rcases Classical.em (v = []) with rfl | hn
    · rw [h.1]
      exact ⟨by simp, fun a e => by cases e⟩
    · rcases all_or_firstBad c v with ha | ⟨b, i, hb⟩
      · exact absurd ⟨hn, ha⟩ hv
      · rw [(h.2 v).2 b i hb]
        exact ⟨by simp, fun a e => by cases e⟩

omit e in
theorem validates_ok {α : Type} {c : UInt8 → Prop} {mk : Bytes → α} {f : Bytes → Made ValidationError α} (h : Validates c mk f) (v : Bytes) :
    f v ≠ .panicked ∧ ∀ a, f v = .ok a → a = mk v ∧ ∀ b ∈ v, c b := by
  rcases all_or_firstBad c v with ha | ⟨b, i, hb⟩
  · rw [(h v).1 ha]
    exact ⟨by simp, fun a e => by cases e; exact ⟨rfl, ha⟩⟩
  · rw [(h v).2 b i hb]
    exact ⟨by simp, fun a e => by cases e⟩

instance : Has atom IsAtom := ⟨.bind Has.sat fun v _ => .of (validates1_ok C25_atom v).1 fun a e => by
  obtain ⟨rfl, h⟩ := (validates1_ok C25_atom v).2 a e; exact h⟩
instance : Has atomExt (Str1 AStringChar) := ⟨.bind Has.sat fun v _ => .of (validates1_ok C25_atomExt v).1 fun a e => by
  obtain ⟨rfl, h⟩ := (validates1_ok C25_atomExt v).2 a e; exact h⟩
instance : Has tag Tag.Inv := ⟨.bind Has.sat fun v _ => .of (validates1_ok C25_tag v).1 fun a e => by
  obtain ⟨rfl, h⟩ := (validates1_ok C25_tag v).2 a e; exact h⟩
instance : Has text (Str1 TextChar) := ⟨.bind Has.sat fun v _ => .of (validates1_ok C25_text v).1 fun a e => by
  obtain ⟨rfl, h⟩ := (validates1_ok C25_text v).2 a e; exact h⟩
instance : Has listCharString (Str1 ListChar) := ⟨.bind Has.sat fun v _ => .of (validates1_ok C25_listCharString v).1 fun a e => by
  obtain ⟨rfl, h⟩ := (validates1_ok C25_listCharString v).2 a e; exact h⟩
instance : Has quoted (fun s => ∀ b ∈ s, TextChar b) := ⟨.bind Has.sat fun v _ => .of (validates_ok C25_quoted v).1 fun a e => by
  obtain ⟨rfl, h⟩ := (validates_ok C25_quoted v).2 a e; exact h⟩

instance : Has quotedChar TextChar := ⟨.bind Has.sat fun c _ => .of (by unfold QuotedChar.tryFrom; split <;> simp) fun b e =>
  ((C25_quotedChar c b).1 e).2.2⟩

instance : Has mode fun _ => True := ⟨by unfold mode; variants <;> trivial⟩

section
variable [l : Lvl]

instance : Has literal (Literal.Inv L) := ⟨by
  refine .bind Has.sat fun v hv => .bind (.of (validates_ok C25_literal v).1 (validates_ok C25_literal v).2) ?_
  rintro _ ⟨rfl, h⟩
  refine .bind Has.sat fun m _ => .pure ⟨fun h0 => h 0 h0 rfl, fun hl => ?_⟩
  exact Nat.lt_of_le_of_lt hv (l.small hl)⟩

instance : Has literal8 (Literal8.Inv L) := ⟨by
  refine .bind Has.sat fun v hv => .bind Has.sat fun m _ => .pure fun hl => ?_
  exact Nat.lt_of_le_of_lt hv (l.small hl)⟩

variable [q : Quirks]

instance : Has istring (IString.Inv L) := ⟨by
  unfold istring
  split
  · rename_i hu
    refine .intIn fun n _ _ => ?_
    split
    · exact .bind Has.sat fun s hs => .pure hs
    · refine .bind Has.sat fun s hs => ?_
      have hv : Quoted.tryFrom s = (Quoted.validate s).bind fun _ => fromUtf8Unwrap s := rfl
      rcases all_or_firstBad TextChar s with ha | ⟨b, i, hb⟩
      · have := (C25_quoted s).1 ha
        rw [hv] at this
        cases he : Quoted.validate s with
        | ok _ => exact .pure ha
        | err _ => rw [he] at this; cases this
        | panicked => rw [he] at this; cases this
      · have := (C25_quoted s).2 b i hb
        rw [hv] at this
        obtain ⟨pre, post, rfl, -, -, hb⟩ := hb
        have hx : IString.Inv L (.quotedUtf8 (pre ++ b :: post)) :=
          ⟨hu, hs.2, fun _ => ⟨b, by simp, hb⟩, fun hl => absurd hl l.notLine⟩
        cases he : Quoted.validate (pre ++ b :: post) with
        | ok _ =>
          rw [he] at this
          simp only [Made.bind, fromUtf8Unwrap, hs.2, if_true] at this
          cases this
        | err _ => exact .pure hx
        | panicked => rw [he] at this; cases this
    · exact .bind Has.sat fun s hs => .pure hs
    · impossible
  · refine .intIn fun n _ _ => ?_
    split
    · exact .bind Has.sat fun s hs => .pure hs
    · exact .bind Has.sat fun s hs => .pure hs
    · impossible⟩

instance : Has nstring (NString.Inv L) := ⟨Has.sat (g := opt istring)⟩
instance : Has astring (AString.Inv L) := ⟨by unfold astring; variants <;> assumption⟩
omit l q in
instance : Has charset Charset.Inv := ⟨by unfold charset; variants <;> assumption⟩
omit q in
instance : Has literalOrLiteral8 (LiteralOrLiteral8.Inv L) := ⟨by unfold literalOrLiteral8; variants <;> assumption⟩
instance : Has nstring8 (NString8.Inv L) := ⟨by unfold nstring8; variants <;> assumption⟩

instance : Has mailbox (Mailbox.Inv L) := ⟨by
  refine .bind Has.sat fun v hv => ?_
  by_cases h0 : 0 ∈ v
  · rcases all_or_firstBad NotNul v with ha | ⟨b, i, hb⟩
    · exact absurd rfl (ha 0 h0)
    · have : b = 0 := by
        obtain ⟨_, _, _, _, _, hb⟩ := hb
        exact not_not.1 hb
      subst this
      rw [(C26_tryFrom v).2 i hb]
      exact .of (by simp) fun a e => by cases e
  · obtain ⟨m, hm, -, hi, hr⟩ := (C26_tryFrom v).1 h0
    rw [hm]
    refine .of (by simp) fun a e => ?_
    cases e
    rcases hl : l.L with _ | _ | _
    · exact hi
    · exact hr (Nat.lt_of_le_of_lt hv.1 (l.small hl))
    · exact absurd hl l.notLine⟩

instance : Has listMailbox (ListMailbox.Inv L) := ⟨by unfold listMailbox; variants <;> assumption⟩
instance : Has capability (Capability.Inv L) := ⟨.bind Has.sat fun a ha => .pure (lift (p := fun L => Capability.Inv L _) ((Capability.inv_iff _).1
  (Capability.ofAtom_valid ((Spec.isAtom_iff _).2 ha))) Capability.mono)⟩
instance : Has mechanism (AuthMechanism.Inv L) := ⟨.bind Has.sat fun v _ => (Sat.ofText C54_mechanism_partial v).mono fun _ h => lift (p := fun L => AuthMechanism.Inv L _) h AuthMechanism.mono⟩
omit l in
instance : Has capabilityEnable CapabilityEnable.Inv := ⟨.bind Has.sat fun v _ => Sat.ofText C54_enable v⟩

end

instance : Has flag Flag.Inv := ⟨.bind Has.sat fun v _ => Sat.ofText C54_flag v⟩
instance : Has flagPerm FlagPerm.Inv := ⟨by unfold flagPerm; variants <;> first | assumption | trivial⟩
instance : Has attributeFlag AttributeFlag.Inv := ⟨.bind Has.sat fun v _ => Sat.ofText C54_attributeFlag v⟩
instance : Has flagNameAttribute FlagNameAttribute.Inv := ⟨.bind Has.sat fun a ha => .pure ((FlagNameAttribute.inv_iff _).1
  (FlagNameAttribute.ofAtom_valid ((Spec.isAtom_iff _).2 ha)))⟩
instance : Has resource Resource.Inv := ⟨.bind Has.sat fun v _ => Sat.ofText C54_resource v⟩
instance : Has threadingAlgorithm ThreadingAlgorithm.Inv := ⟨.bind Has.sat fun a ha => .pure ((ThreadingAlgorithm.inv_iff _).1
  (ThreadingAlgorithm.ofAtom_valid ((Spec.isAtom_iff _).2 ha)))⟩

end

instance : Has seqOrUid SeqOrUid.Inv := ⟨by unfold seqOrUid; variants <;> first | assumption | trivial⟩
instance : Has sequence Sequence.Inv := ⟨by unfold sequence; variants <;> first | assumption | exact ⟨by assumption, by assumption⟩⟩
instance : Has sequenceSet SequenceSet.Inv := ⟨Has.sat (g := vec1 sequence)⟩

instance : Has naiveDate NaiveDate.Inv := ⟨by
  refine .bind (Sat.any _) fun d hd => ?_
  cases d with
  | none => exact .fail
  | some d =>
    dsimp only
    split
    · rename_i hy
      obtain ⟨y, m, d', h⟩ := hd d rfl
      have hd : d = ⟨y, m, d'⟩ := by
        unfold fromYmdOpt at h
        split at h <;> cases h
        rfl
      subst hd
      exact .pure ((NaiveDate.inv_iff _).1 ((fromYmdOpt_eq_some (by simp only at hy; omega)).1 h).2)
    · exact .fail⟩

instance : Has dateTime DateTime.Inv := ⟨by
  refine .intIn fun y _ hy => .intIn fun m _ _ => .intIn fun d _ _ => ?_
  split
  · exact .fail
  · rename_i date hdate
    have hv := ((fromYmdOpt_eq_some (by omega)).1 hdate).2
    refine .bind (Sat.any _) fun secs hs => .bind (Sat.any _) fun nanos _ => .intIn fun h _ hh => .intIn fun mi _ hm => ?_
    dsimp only
    split
    · exfalso; omega
    · split
      · exact .fail
      · split
        · exact .fail
        · refine .pure ⟨(NaiveDate.inv_iff _).1 hv, ?_, ?_, ?_, ?_, ?_, ?_⟩ <;> dsimp only <;> omega⟩

/-! ### Fetch and search -/

instance : Has part Part.Inv := ⟨Has.sat (g := vec1 nz32)⟩
instance : Has partial_ (Opt Partial.Inv) := ⟨by
  unfold partial_
  haveI : Has (do return (← u32, ← nz32)) Partial.Inv := ⟨by repeat' sat_step
                                                             exact ⟨by assumption, by assumption⟩⟩
  exact Has.sat⟩

section
variable [e : Entropy] [l : Lvl] [q : Quirks]

instance : Has section_ (Section.Inv L) := ⟨by unfold section_; variants <;> first | assumption | exact ⟨by assumption, by assumption⟩⟩

instance : Has messageDataItemName (MessageDataItemName.Inv L) := ⟨by
  unfold messageDataItemName
  variants <;> first | trivial | assumption | exact ⟨by assumption, by assumption⟩⟩

omit e l q in
instance : Has macro_ fun _ => True := ⟨by unfold macro_; variants <;> trivial⟩

instance : Has macroOrNames (MacroOrNames.Inv L) := ⟨by unfold macroOrNames; variants <;> first | trivial | assumption⟩

/-- A search key that is valid and nested at most `d` deep. -/
def KeyOk (d : Nat) (k : SearchKey) : Prop := SearchKey.Inv L k ∧ k.depth ≤ d

theorem searchKeyLeaf_sat : Sat searchKeyLeaf (KeyOk 1) := by
  unfold searchKeyLeaf
  refine .intIn fun n _ _ => ?_
  split
  all_goals first | impossible | skip
  all_goals repeat' sat_step
  all_goals refine ⟨?_, by simp [SearchKey.depth]⟩
  all_goals first | trivial | assumption | exact ⟨by assumption, by assumption⟩

theorem go_of_all {l' : List SearchKey} {d : Nat} (h : All (KeyOk d) l') : SearchKey.Inv.go L l' := by
  induction l' with
  | nil => trivial
  | cons k l' ih => exact ⟨(h k (by simp)).1, ih fun x hx => h x (by simp [hx])⟩

theorem depth_of_all {l' : List SearchKey} {d : Nat} (h : All (KeyOk d) l') : SearchKey.depth.go l' ≤ d := by
  induction l' with
  | nil => simp [SearchKey.depth.go]
  | cons k l' ih =>
    have h1 := (h k (by simp)).2
    have h2 := ih fun x hx => h x (by simp [hx])
    simp only [SearchKey.depth.go]
    omega

omit l q in
instance : Has entryTypeReq fun _ => True := ⟨by unfold entryTypeReq; variants <;> trivial⟩

theorem KeyOk.mono {d d' : Nat} (hd : d ≤ d') {k : SearchKey} (h : KeyOk d k) : KeyOk d' k := ⟨h.1, Nat.le_trans h.2 hd⟩

theorem searchKeyLimited_sat : ∀ d, Sat (searchKeyLimited d) (KeyOk (d + 1))
  | 0 => searchKeyLeaf_sat
  | d + 1 => by
    have ih := searchKeyLimited_sat d
    haveI : Has (searchKeyLimited d) (KeyOk (d + 1)) := ⟨ih⟩
    unfold searchKeyLimited
    refine .intIn fun n _ hn => ?_
    split
    · refine .bind Has.sat fun ks hk => .bind (.nonEmptyOr hk (searchKeyLeaf_sat.mono fun k => KeyOk.mono (by omega))) fun ks hk => .pure ?_
      have := depth_of_all hk.2
      exact ⟨⟨hk.1, go_of_all hk.2⟩, by simp only [SearchKey.depth]; omega⟩
    all_goals first | impossible | skip
    case h_17 =>
      refine .bind Has.sat fun k hk => .pure ⟨hk.1, ?_⟩
      have := hk.2
      simp only [SearchKey.depth]; omega
    case h_20 =>
      refine .bind Has.sat fun k hk => .bind Has.sat fun k' hk' => .pure ⟨⟨hk.1, hk'.1⟩, ?_⟩
      have := hk.2
      have := hk'.2
      simp only [SearchKey.depth]; omega
    case h_38 =>
      split
      · rename_i hc
        haveI : Has (do return (← attributeFlag, ← entryTypeReq)) (fun x => AttributeFlag.Inv x.1) := ⟨by
          repeat' sat_step
          assumption⟩
        refine .bind Has.sat fun x hx => .bind Has.sat fun n hn => .pure ⟨⟨hc, hx, hn⟩, by simp [SearchKey.depth]⟩
      · exfalso
        rename_i hc
        rw [if_neg hc] at hn
        omega
    case h_39 => exfalso; simp only [imp_false] at *; split at hn <;> omega
    all_goals repeat' sat_step
    all_goals refine ⟨?_, by simp [SearchKey.depth]⟩
    all_goals first | trivial | assumption | exact ⟨by assumption, by assumption⟩

instance : Has searchKey (fun k => SearchKey.Inv L k ∧ (L = .rt → k.depth ≤ 9)) := ⟨by
  unfold searchKey
  split
  · exact searchKeyLeaf_sat.mono fun k h => ⟨h.1, fun _ => Nat.le_trans h.2 (by omega)⟩
  · exact (searchKeyLimited_sat 7).mono fun k h => ⟨h.1, fun _ => Nat.le_trans h.2 (by omega)⟩⟩

/-! ### Commands -/

omit e l in
theorem selectParameter_sat (h : q.extCondstoreQresync = true) : Sat selectParameter SelectParameter.Inv := by
  haveI : Has (do return (← sequenceSet, ← sequenceSet)) (fun x => SequenceSet.Inv x.1 ∧ SequenceSet.Inv x.2) := ⟨by
    repeat' sat_step
    exact ⟨by assumption, by assumption⟩⟩
  unfold selectParameter
  variants
  · exact h
  · exact ⟨h, by assumption, by assumption, by assumption, by assumption⟩

omit e l in
instance : Has (field q.extCondstoreQresync [] (vec selectParameter)) (All SelectParameter.Inv) :=
  ⟨.field (by simp [All]) fun h => .vec (selectParameter_sat h)⟩

omit e l in
instance : Has (field q.extCondstoreQresync [] (vec fetchModifier)) (All FetchModifier.Inv) := ⟨.field (by simp [All]) fun h => .vec (by
  unfold fetchModifier
  variants
  · exact ⟨h, by assumption⟩
  · exact h)⟩

omit e l in
instance : Has (field q.extCondstoreQresync [] (vec u64)) (All StoreModifier.Inv) := ⟨.field (by simp [All]) fun h =>
  .vec (Has.sat (g := u64).mono fun n hn => ⟨h, hn⟩)⟩

omit e l in
instance : Has statusDataItemName StatusDataItemName.Inv := ⟨by unfold statusDataItemName; variants <;> first | trivial | assumption⟩
omit l q in
instance : Has quotaSet QuotaSet.Inv := ⟨by unfold quotaSet; repeat' sat_step
                                            exact ⟨by assumption, by assumption⟩⟩
omit e l q in
instance : Has sortKey fun _ => True := ⟨by unfold sortKey; variants <;> trivial⟩
omit e l q in
instance : Has sortCriterion fun _ => True := ⟨by unfold sortCriterion; repeat' sat_step
                                                  trivial⟩
omit e l q in
instance : Has storeType fun _ => True := ⟨by unfold storeType; variants <;> trivial⟩
omit e l q in
instance : Has storeResponse fun _ => True := ⟨by unfold storeResponse; variants <;> trivial⟩

instance : Has idParams (Opt (IdParams.Inv L)) := ⟨by
  haveI : Has (do return (← istring, ← nstring)) (fun x => IString.Inv L x.1 ∧ NString.Inv L x.2) := ⟨by
    repeat' sat_step
    exact ⟨by assumption, by assumption⟩⟩
  unfold idParams
  exact Has.sat⟩

instance : Has entryValue (EntryValue.Inv L) := ⟨by unfold entryValue; repeat' sat_step
                                                    exact ⟨by assumption, by assumption⟩⟩
omit e l q in
instance : Has getMetadataOption GetMetadataOption.Inv := ⟨by
  haveI : Has (oneOf [pure GetMetadataOption.depthNull, pure .depthOne, pure .depthInfinity]) GetMetadataOption.Inv := ⟨by
    variants <;> trivial⟩
  unfold getMetadataOption
  variants
  assumption⟩

instance : Has commandBody (CommandBody.Inv L) := ⟨by
  unfold commandBody
  variants
  all_goals try simp only [CommandBody.Inv]
  all_goals first | trivial | assumption | parts⟩

instance : Has command (Command.Inv L) := ⟨by unfold command; repeat' sat_step
                                              exact ⟨by assumption, by assumption⟩⟩

/-! ### Envelopes and body structures -/

instance : Has address (Address.Inv L) := ⟨by unfold address; repeat' sat_step
                                              simp only [Address.Inv]; parts⟩
instance : Has envelope (Envelope.Inv L) := ⟨by unfold envelope; repeat' sat_step
                                                simp only [Envelope.Inv]; parts⟩

/-- What a generated body extension is. -/
def ExtOk (x : BodyExtension) : Prop := BodyExtension.Inv L x ∧ x.depth = 1

theorem bodyExtension_choice {rest : Nat → Gen BodyExtension}
    (h1 : rest 1 = do return .nstring (← nstring)) (h2 : rest 2 = do return .number (← u32)) : Sat (do rest (← intIn 1 2)) ExtOk := by
  refine .intIn fun n hl hr => ?_
  have : n = 1 ∨ n = 2 := by omega
  rcases this with rfl | rfl
  · rw [h1]
    repeat' sat_step
    exact ⟨by assumption, rfl⟩
  · rw [h2]
    repeat' sat_step
    exact ⟨by assumption, rfl⟩

theorem bodyExtension_sat : Sat bodyExtension ExtOk := by
  unfold bodyExtension
  split
  · exact bodyExtension_choice rfl rfl
  · exact bodyExtension_choice rfl rfl

instance : Has bodyExtension (fun x => BodyExtension.Inv L x ∧ (L = .rt → x.depth ≤ 8)) :=
  ⟨bodyExtension_sat.mono fun x h => ⟨h.1, fun _ => by rw [h.2]; omega⟩⟩

instance : Has params (Params.Inv L) := ⟨by
  haveI : Has (do return (← istring, ← istring)) (fun x => IString.Inv L x.1 ∧ IString.Inv L x.2) := ⟨by
    repeat' sat_step
    exact ⟨by assumption, by assumption⟩⟩
  unfold params
  exact Has.sat⟩

instance : Has location (Location.Inv L) := ⟨by unfold location; repeat' sat_step
                                                exact ⟨by assumption, by assumption⟩⟩
instance : Has language (Language.Inv L) := ⟨by unfold language; repeat' sat_step
                                                exact ⟨by assumption, by assumption⟩⟩
instance : Has disposition (Disposition.Inv L) := ⟨by
  haveI : Has (do return (← istring, ← params)) (fun x => IString.Inv L x.1 ∧ Params.Inv L x.2) := ⟨by
    repeat' sat_step
    exact ⟨by assumption, by assumption⟩⟩
  unfold disposition
  repeat' sat_step
  exact ⟨by assumption, by assumption⟩⟩
instance : Has singlePartExt (SinglePartExt.Inv L) := ⟨by unfold singlePartExt; repeat' sat_step
                                                          exact ⟨by assumption, by assumption⟩⟩
instance : Has multiPartExt (MultiPartExt.Inv L) := ⟨by unfold multiPartExt; repeat' sat_step
                                                        exact ⟨by assumption, by assumption⟩⟩
instance : Has basicFields (BasicFields.Inv L) := ⟨by unfold basicFields; repeat' sat_step
                                                      simp only [BasicFields.Inv]; parts⟩

/-- A valid body structure with at most `n` levels. -/
def BodyOk (n : Nat) (b : BodyStructure) : Prop := BodyStructure.Inv L b ∧ b.need ≤ n

theorem bodyStructureLeaf_sat : Sat bodyStructureLeaf (BodyOk 2) := by
  unfold bodyStructureLeaf
  refine .bind Has.sat fun f hf => .intIn fun n _ _ => ?_
  split
  · repeat' sat_step
    refine ⟨?_, by simp [BodyStructure.need]⟩
    simp only [BodyStructure.Inv]; parts
  · repeat' sat_step
    refine ⟨?_, by simp [BodyStructure.need]⟩
    simp only [BodyStructure.Inv]; parts
  · impossible

theorem body_go {l' : List BodyStructure} {d : Nat} (h : All (BodyOk d) l') : BodyStructure.Inv.go L l' := by
  induction l' with
  | nil => trivial
  | cons k l' ih => exact ⟨(h k (by simp)).1, ih fun x hx => h x (by simp [hx])⟩

theorem body_need {l' : List BodyStructure} {d : Nat} (h : All (BodyOk d) l') : BodyStructure.need.go l' ≤ d := by
  induction l' with
  | nil => simp [BodyStructure.need.go]
  | cons k l' ih =>
    have h1 := (h k (by simp)).2
    have h2 := ih fun x hx => h x (by simp [hx])
    simp only [BodyStructure.need.go]
    omega

theorem bodyStructureLimited_sat : ∀ d, d ≤ 5 → Sat (bodyStructureLimited d) (BodyOk (d + 2))
  | 0, _ => bodyStructureLeaf_sat
  | d + 1, hd => by
    haveI : Has (bodyStructureLimited d) (BodyOk (d + 2)) := ⟨bodyStructureLimited_sat d (by omega)⟩
    unfold bodyStructureLimited
    refine .intIn fun n _ _ => ?_
    split
    · refine .bind Has.sat fun f hf => .intIn fun n _ _ => ?_
      split
      · repeat' sat_step
        refine ⟨?_, by simp [BodyStructure.need]⟩
        simp only [BodyStructure.Inv]; parts
      · refine .bind Has.sat fun env he => .bind Has.sat fun b hb => ?_
        repeat' sat_step
        refine ⟨?_, by simp [BodyStructure.need]⟩
        have := hb.1
        have : L = .rt → b.need ≤ 7 := fun _ => Nat.le_trans hb.2 (by omega)
        simp only [BodyStructure.Inv]; parts
      · repeat' sat_step
        refine ⟨?_, by simp [BodyStructure.need]⟩
        simp only [BodyStructure.Inv]; parts
      · impossible
    · refine .bind Has.sat fun bs hb => .bind (.nonEmptyOr hb (bodyStructureLeaf_sat.mono fun b h => ⟨h.1, Nat.le_trans h.2 (by omega)⟩)) fun bs hb => ?_
      repeat' sat_step
      have h1 := hb.1
      have h2 := body_go hb.2
      have h3 := body_need hb.2
      refine ⟨?_, by simp only [BodyStructure.need]; omega⟩
      simp only [BodyStructure.Inv]; parts
    · impossible

instance : Has bodyStructure (fun b => BodyStructure.Inv L b ∧ (L = .rt → b.need ≤ 8)) := ⟨by
  unfold bodyStructure
  split
  · exact bodyStructureLeaf_sat.mono fun k h => ⟨h.1, fun _ => Nat.le_trans h.2 (by omega)⟩
  · exact (bodyStructureLimited_sat 3 (by omega)).mono fun k h => ⟨h.1, fun _ => Nat.le_trans h.2 (by omega)⟩⟩

/-! ### Responses -/

omit e l q in
instance : Has uidElement UidElement.Inv := ⟨by unfold uidElement; variants <;> first | assumption | exact ⟨by assumption, by assumption⟩⟩
omit e l q in
instance : Has metadataCode MetadataCode.Inv := ⟨by unfold metadataCode; variants <;> first | trivial | assumption⟩

omit e l in
theorem codeOther_unknown (t : Bytes) : codeKnown (b!"IMAP-CODEC-CODE-OTHER>" ++ b!"] " ++ t ++ b!"\r\n") = .error := by
  rcases q with ⟨_, _, _, _, _, _, _, _, _, _, _, _, _, _, c, _, _, _, m, _, _⟩
  cases c <;> cases m <;> with_unfolding_all rfl

instance : Has code (fun c => ∀ t, (L = .rt → NoReferral (some c)) → Code.Inv L t c) := ⟨by
  unfold code
  variants
  all_goals intro t hr
  all_goals try simp only [Code.Inv]
  all_goals first | trivial | assumption | parts | skip
  · rename_i h url hu
    simp only [Bool.or_eq_true] at h
    exact ⟨h.symm, fun hl => hr hl url rfl, hu.2, fun hl => absurd hl l.notLine⟩
  · exact ⟨fun _ => ⟨by decide, codeOther_unknown t⟩, fun hl => absurd hl l.notLine⟩⟩

omit l q in
instance : Has textNoBracket (fun t => Str1 TextChar t ∧ t.head? ≠ some 91) := ⟨by
  unfold textNoBracket
  refine .bind Has.sat fun t ht => ?_
  split
  · exact .unwrap ((C25_text.2 b!"...").1 ⟨by decide, by unfold TextChar; decide⟩) ⟨⟨by decide, by unfold TextChar; decide⟩, by decide⟩
  · exact .pure ⟨ht, by assumption⟩⟩

theorem respText_inv {c : Option Code} {t : Bytes} (hc : Opt (fun c => ∀ t, (L = .rt → NoReferral (some c)) → Code.Inv L t c) c)
    (ht : Str1 TextChar t) (hb : c = none → t.head? ≠ some 91) (hr : L = .rt → NoReferral c) : RespText.Inv L c t := by
  refine ⟨ht, fun c' hc' => hc c' hc' t fun hl => ?_, fun _ => hb⟩
  cases hc'
  exact hr hl

omit e l q in
instance : Has greetingKind fun _ => True := ⟨by unfold greetingKind; variants <;> trivial⟩

instance : Has greeting (fun g => (L = .rt → NoReferral g.code) → Greeting.Inv L g) := ⟨by
  unfold greeting
  refine .bind Has.sat fun k _ => .bind Has.sat fun c hc => .bind Has.sat fun t ht => .pure fun hr => ?_
  exact respText_inv hc ht.1 (fun _ => ht.2) hr⟩

theorem status_inv (s : Status) (ht : ∀ tag ∈ s.tag?, Tag.Inv tag) (h : RespText.Inv L s.code s.text) : Status.Inv L s := by
  cases s with
  | tagged tag k c t => exact ⟨ht tag rfl, h⟩
  | untagged k c t => exact h
  | bye c t => exact h

instance : Has status (fun s => (L = .rt → NoReferral s.code) → Status.Inv L s) := ⟨by
  unfold status
  refine .bind Has.sat fun c hc => ?_
  refine .bind (P := fun t => Str1 TextChar t ∧ (c = none → t.head? ≠ some 91)) ?_ fun t ht => ?_
  · split
    · rename_i h
      exact Sat.mono Has.sat fun t ht => ⟨ht, fun e => by rw [e] at h; cases h⟩
    · exact Sat.mono Has.sat fun t ht => ⟨ht.1, fun _ => ht.2⟩
  · have key : ∀ s : Status, (∀ tag ∈ s.tag?, Tag.Inv tag) → s.code = c → s.text = t → (L = .rt → NoReferral s.code) → Status.Inv L s := by
      rintro s h1 rfl rfl hr
      exact status_inv s h1 (respText_inv hc ht.1 ht.2 hr)
    refine .intIn fun n _ _ => ?_
    have tags : ∀ (k : StatusKind), Sat (do
        match ← opt tag with
        | some tag => return Status.tagged tag k c t
        | none => return .untagged k c t) (fun s => (L = .rt → NoReferral s.code) → Status.Inv L s) := by
      intro k
      refine .bind Has.sat fun tag htag => ?_
      cases tag with
      | none => exact .pure (key _ (fun _ h => by cases h) rfl rfl)
      | some tag => exact .pure (key _ (fun _ h => by cases h; exact htag _ rfl) rfl rfl)
    split
    · exact tags .ok
    · exact tags .no
    · exact tags .bad
    · exact .pure (key _ (fun _ h => by cases h) rfl rfl)
    · impossible⟩

instance : Has continueReq (fun r => (L = .rt → Recoverable .response (.continue_ r)) → ContinueReq.Inv L r) := ⟨by
  unfold continueReq
  refine .oneOf ?_
  simp only [List.forall_mem_cons, List.not_mem_nil, false_imp_iff, implies_true, and_true]
  refine ⟨?_, .bind Has.sat fun _ _ => .pure fun _ => trivial⟩
  refine .bind Has.sat fun c hc => .bind Has.sat fun t ht => ?_
  have e1 : ContinueReq.mkBasic c (.ok t : Made Unit Bytes) =
    match ContinueReq.ofBasic c t with
    | some r => .ok r
    | none => .err .ambiguity := rfl
  rw [e1]
  unfold ContinueReq.ofBasic
  by_cases h1 : (c.isNone && t.head? == some 91) = true
  · rw [if_pos h1]
    exact .of (by simp) fun _ e => by cases e
  · rw [if_neg h1]
    by_cases h2 : (c.isNone && (b64Decode t).isSome) = true
    · rw [if_pos h2]
      exact .of (by simp) fun _ e => by cases e
    · rw [if_neg h2]
      refine .of (by simp) fun _ e => ?_
      cases e
      intro hr
      have hb : c = none → t.head? ≠ some 91 ∧ b64Decode t = none := by
        rintro rfl
        simpa using And.intro h1 h2
      exact ⟨respText_inv hc ht (fun e => (hb e).1) hr, hb⟩⟩

omit e l in
instance : Has statusDataItem StatusDataItem.Inv := ⟨by unfold statusDataItem; variants <;> first | assumption | parts⟩

omit l q in
instance : Has flagFetch (fun f => (L = .rt → ∀ s, f = .flag (.extension s) → lowerAll s ≠ b!"recent") → FlagFetch.Inv L f) := ⟨by
  unfold flagFetch
  variants
  · intro h
    refine ⟨by assumption, fun hl s e => ?_⟩
    simp only [NotOneOf, List.mem_singleton]
    exact h hl s (by rw [e])
  · intro _; trivial⟩

instance : Has messageDataItem (fun i => (L = .rt → ItemRecoverable i) → MessageDataItem.Inv L i) := ⟨by
  unfold messageDataItem
  variants
  all_goals intro hr
  all_goals try simp only [MessageDataItem.Inv]
  all_goals first | assumption | parts | skip
  · rename_i l' hl'
    intro f hf
    refine hl' f hf fun hl s e => ?_
    subst e
    exact hr hl s hf⟩

omit e l q in
instance : Has threadLeaf (fun t => Thread.Inv t ∧ t.depth ≤ 1) := ⟨by
  unfold threadLeaf
  refine .bind Has.sat fun p hp => .pure ⟨⟨hp, by simp, trivial⟩, by simp [Thread.depth, Thread.depth.go]⟩⟩

omit e l q in
theorem threadLoop_sat : ∀ (n d : Nat) (t : Thread), Thread.Inv t → t.depth ≤ d → Sat (threadLoop n t) (fun t => Thread.Inv t ∧ t.depth ≤ d + n)
  | 0, d, t, h, hd => .pure ⟨h, hd⟩
  | n + 1, d, t, h, hd => by
    unfold threadLoop
    refine .intIn fun i _ _ => ?_
    have hv : VecN.tryFrom 2 [t, t] = .ok [t, t] := rfl
    split
    · refine .bind Has.sat fun p hp => .bind (.unwrap (P := fun x => x = [t, t]) hv rfl) ?_
      rintro _ rfl
      refine (threadLoop_sat n (d + 1) (.members p [t, t]) ⟨hp, by simp, h, h, trivial⟩ ?_).mono fun t ht => ⟨ht.1, by have := ht.2; omega⟩
      simp only [Thread.depth, Thread.depth.go]; omega
    · refine .bind (.unwrap (P := fun x => x = [t, t]) hv rfl) ?_
      rintro _ rfl
      refine (threadLoop_sat n (d + 1) (.nested [t, t]) ⟨by simp, h, h, trivial⟩ ?_).mono fun t ht => ⟨ht.1, by have := ht.2; omega⟩
      simp only [Thread.depth, Thread.depth.go]; omega
    · exact .pure ⟨h, by omega⟩
    · impossible

omit q in
instance : Has thread (fun t => Thread.Inv t ∧ (L = .rt → t.depth ≤ 8)) := ⟨by
  unfold thread
  split
  · exact Sat.mono Has.sat fun t h => ⟨h.1, fun _ => by have := h.2; omega⟩
  · exact .bind Has.sat fun t h => (threadLoop_sat 7 1 t h.1 h.2).mono fun t h => ⟨h.1, fun _ => h.2⟩⟩

instance : Has namespaceExt (NamespaceExt.Inv L) := ⟨by unfold namespaceExt; repeat' sat_step
                                                        exact ⟨by assumption, by assumption⟩⟩
instance : Has namespace_ (Namespace.Inv L) := ⟨by unfold namespace_; repeat' sat_step
                                                   exact ⟨by assumption, by assumption, by assumption⟩⟩
omit l q in
instance : Has quotaGet QuotaGet.Inv := ⟨by unfold quotaGet; repeat' sat_step
                                            exact ⟨by assumption, by assumption, by assumption⟩⟩
instance : Has metadataResponse (MetadataResponse.Inv L) := ⟨by unfold metadataResponse; variants <;> assumption⟩

omit e l in
instance : Has (field q.extCondstoreQresync none (opt nz64)) (Opt (fun n => q.extCondstoreQresync ∧ NZ64 n)) :=
  ⟨.field (fun _ h => by cases h) fun h => Sat.mono Has.sat fun _ hn n hm => ⟨h, hn n hm⟩⟩

instance : Has data (fun d => (L = .rt → Recoverable .response (.data d)) → Data.Inv L d) := ⟨by
  unfold data
  variants
  all_goals intro hr
  all_goals try simp only [Data.Inv]
  all_goals first | assumption | parts | skip
  rename_i n hn l' hl'
  exact ⟨hn, hl'.1, fun i hi => hl'.2 i hi fun hl => hr hl i hi⟩⟩

instance : Has response (fun r => (L = .rt → Recoverable .response r) → Response.Inv L r) := ⟨by
  unfold response
  variants <;> assumption⟩

/-- All messages. -/
theorem message_sat (k : Codec) : Sat (message k) (fun m => (L = .rt → Recoverable k m) → Message.Inv L k m) := by
  cases k with
  | greeting => exact Has.sat (g := greeting)
  | command => exact Sat.mono (Has.sat (g := command)) fun c h _ => h
  | authenticateData =>
    refine Sat.mono (P := fun _ => True) ?_ fun _ _ _ => trivial
    unfold message authenticateData
    variants <;> trivial
  | response => exact Has.sat (g := response)
  | idleDone => exact .pure fun _ => trivial

end

end Imap.Arb
