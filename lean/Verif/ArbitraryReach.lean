import Verif.ArbitraryLemmas
import Verif.CommandRT
import Verif.ResponseRT
import Verif.SerdeLaws
set_option maxRecDepth 10000
/-! Which messages the generators of Verif/Arbitrary.lean reach. -/
namespace Imap.Arb
open Imap.Spec

theorem ok_pure {α : Type} {a b : α} : (pure a : Gen α) (.ok b) ↔ b = a := by
  show Made.ok b = Made.ok a ↔ _
  exact ⟨fun h => by cases h; rfl, fun h => by rw [h]⟩

theorem ok_bind {α β : Type} {g : Gen α} {f : α → Gen β} {b : β} : (g >>= f) (.ok b) ↔ ∃ a, g (.ok a) ∧ f a (.ok b) := by
  show Gen.bind g f (.ok b) ↔ _
  simp [Gen.bind]

theorem ok_any {α : Type} {p : α → Prop} {a : α} : any p (.ok a) ↔ p a := by simp [any]

theorem ok_oneOf {α : Type} {l : List (Gen α)} {a : α} : oneOf l (.ok a) ↔ ∃ g ∈ l, g (.ok a) := Iff.rfl

theorem ok_onlyIf {α : Type} {b : Bool} {g : Gen α} {a : α} : onlyIf b g (.ok a) ↔ b = true ∧ g (.ok a) := Iff.rfl

theorem ok_of {ε α : Type} {m : Made ε α} {a : α} : of m (.ok a) ↔ m = .ok a := by
  cases m <;> simp [of, Made.mapErr, eq_comm]

theorem ok_times {α : Type} {g : Gen α} : ∀ {l : List α}, (∀ a ∈ l, g (.ok a)) → times g l.length (.ok l)
  | [], _ => ok_pure.2 rfl
  | a :: _, h => ok_bind.2 ⟨a, h a (by simp), ok_bind.2 ⟨_, ok_times fun b hb => h b (by simp [hb]), ok_pure.2 rfl⟩⟩

theorem ok_vec {α : Type} {g : Gen α} {l : List α} (h : ∀ a ∈ l, g (.ok a)) : vec g (.ok l) :=
  ok_bind.2 ⟨l.length, ok_any.2 trivial, ok_times h⟩

theorem ok_vec1 {α : Type} {g : Gen α} {l : List α} (hl : l ≠ []) (h : ∀ a ∈ l, g (.ok a)) : vec1 g (.ok l) :=
  ok_bind.2 ⟨l, ok_vec h, ok_of.2 (vecN_of (List.length_pos_iff.2 hl))⟩

theorem ok_opt_some {α : Type} {g : Gen α} {a : α} (h : g (.ok a)) : opt g (.ok (some a)) :=
  ok_bind.2 ⟨true, ok_any.2 trivial, ok_bind.2 ⟨a, h, ok_pure.2 rfl⟩⟩

theorem ok_opt_none {α : Type} {g : Gen α} : opt g (.ok none) := ok_bind.2 ⟨false, ok_any.2 trivial, ok_pure.2 rfl⟩

/-- The generator returns the value if there are enough random bytes. -/
def Reaches {α : Type} (g : Entropy → Gen α) (a : α) : Prop := ∃ n, ∀ e : Entropy, n ≤ e.size → e.simplified = false → g e (.ok a)

section rules
variable {α β : Type}

theorem Reaches.const {g : Gen α} {a : α} (h : g (.ok a)) : Reaches (fun _ => g) a := ⟨0, fun _ _ _ => h⟩

theorem Reaches.pure {a b : α} (h : b = a) : Reaches (fun _ => pure a) b := .const (ok_pure.2 h)

/-- The continuation comes first, as it determines the value. -/
theorem Reaches.bind {g : Entropy → Gen α} {f : Entropy → α → Gen β} {a : α} {b : β} (hf : Reaches (fun e => f e a) b) (h : Reaches g a) :
    Reaches (fun e => g e >>= f e) b := by
  obtain ⟨n, hn⟩ := h
  obtain ⟨m, hm⟩ := hf
  exact ⟨max n m, fun e he hs => ok_bind.2 ⟨a, hn e (by omega) hs, hm e (by omega) hs⟩⟩

theorem Reaches.head {g : Entropy → Gen α} {l : Entropy → List (Gen α)} {a : α} (h : Reaches g a) : Reaches (fun e => oneOf (g e :: l e)) a := by
  obtain ⟨n, hn⟩ := h
  exact ⟨n, fun e he hs => ⟨_, .head _, hn e he hs⟩⟩

theorem Reaches.tail {g : Entropy → Gen α} {l : Entropy → List (Gen α)} {a : α} (h : Reaches (fun e => oneOf (l e)) a) :
    Reaches (fun e => oneOf (g e :: l e)) a := by
  obtain ⟨n, hn⟩ := h
  refine ⟨n, fun e he hs => ?_⟩
  obtain ⟨x, hx, h⟩ := hn e he hs
  exact ⟨x, .tail _ hx, h⟩

theorem Reaches.onlyIf {b : Bool} {g : Entropy → Gen α} {a : α} (hb : b = true) (h : Reaches g a) : Reaches (fun e => onlyIf b (g e)) a := by
  obtain ⟨n, hn⟩ := h
  exact ⟨n, fun e he hs => ⟨hb, hn e he hs⟩⟩

theorem Reaches.any {p : α → Prop} {a : α} (h : p a) : Reaches (fun _ => any p) a := .const (ok_any.2 h)

theorem Reaches.intIn {lo hi : Nat} {f : Entropy → Nat → Gen β} {b : β} (i : Nat) (h1 : lo ≤ i) (h2 : i ≤ hi) (hf : Reaches (fun e => f e i) b) :
    Reaches (fun e => intIn lo hi >>= f e) b := .bind hf (.any ⟨h1, h2⟩)

theorem Reaches.list {g : Entropy → Gen α} : ∀ {l : List α}, (∀ a ∈ l, Reaches g a) →
    ∃ n, ∀ e : Entropy, n ≤ e.size → e.simplified = false → ∀ a ∈ l, g e (.ok a)
  | [], _ => ⟨0, fun _ _ _ a ha => by cases ha⟩
  | a :: l, h => by
    obtain ⟨n, hn⟩ := h a (by simp)
    obtain ⟨m, hm⟩ := Reaches.list (l := l) fun b hb => h b (by simp [hb])
    refine ⟨max n m, fun e he hs b hb => ?_⟩
    rcases List.mem_cons.1 hb with rfl | hb
    · exact hn e (by omega) hs
    · exact hm e (by omega) hs b hb

theorem Reaches.vec {g : Entropy → Gen α} {l : List α} (h : ∀ a ∈ l, Reaches g a) : Reaches (fun e => vec (g e)) l := by
  obtain ⟨n, hn⟩ := Reaches.list h
  exact ⟨n, fun e he hs => ok_vec (hn e he hs)⟩

theorem Reaches.vec1 {g : Entropy → Gen α} {l : List α} (hl : l ≠ []) (h : ∀ a ∈ l, Reaches g a) : Reaches (fun e => vec1 (g e)) l := by
  obtain ⟨n, hn⟩ := Reaches.list h
  exact ⟨n, fun e he hs => ok_vec1 hl (hn e he hs)⟩

theorem Reaches.opt {g : Entropy → Gen α} {o : Option α} (h : ∀ a ∈ o, Reaches g a) : Reaches (fun e => opt (g e)) o := by
  cases o with
  | none => exact ⟨0, fun _ _ _ => ok_opt_none⟩
  | some a =>
    obtain ⟨n, hn⟩ := h a rfl
    exact ⟨n, fun e he hs => ok_opt_some (hn e he hs)⟩

theorem Reaches.ofVec {g : Entropy → Gen α} {P : α → Prop} (h : ∀ a, P a → Reaches g a) {l : List α} (hl : All P l) : Reaches (fun e => Arb.vec (g e)) l :=
  .vec fun a ha => h a (hl a ha)

theorem Reaches.ofVec1 {g : Entropy → Gen α} {P : α → Prop} (h : ∀ a, P a → Reaches g a) {l : List α} (hl : All1 P l) : Reaches (fun e => Arb.vec1 (g e)) l :=
  .vec1 hl.1 fun a ha => h a (hl.2 a ha)

theorem Reaches.ofOpt {g : Entropy → Gen α} {P : α → Prop} (h : ∀ a, P a → Reaches g a) {o : Option α} (ho : Opt P o) : Reaches (fun e => Arb.opt (g e)) o :=
  .opt fun a ha => h a (ho a ha)

/-- A field that is absent without the feature. -/
theorem Reaches.field {g : Entropy → Gen α} {b : Bool} {absent a : α} (h0 : b = false → a = absent) (h : Reaches g a) :
    Reaches (fun e => field b absent (g e)) a := by
  unfold Arb.field
  cases b with
  | false => exact .pure (h0 rfl)
  | true => exact h

theorem Reaches.str {s : Bytes} (h : isUtf8 s = true) : Reaches (fun e => @str e) s := ⟨s.length, fun _ he _ => ok_any.2 ⟨he, h⟩⟩

theorem Reaches.bytes {s : Bytes} : Reaches (fun e => @bytes e) s := ⟨s.length, fun _ he _ => ok_any.2 he⟩

theorem Reaches.of {ε : Type} {m : Made ε α} {a : α} (h : m = .ok a) : Reaches (fun _ => of m) a := .const (ok_of.2 h)

/-- Conversions of texts. -/
theorem Reaches.ofText {acc : Bytes → Prop} {valid : α → Prop} {print : α → Bytes} {parse : Bytes → Made ValidationError α}
    (h : TextForm acc valid print parse) {a : α} (ha : valid a) (hu : isUtf8 (print a) = true) :
    Reaches (fun e => do Arb.of (parse (← @Arb.str e))) a := .bind (.of (h.back a ha)) (.str hu)

end rules

theorem atomChar_ascii {b : UInt8} (h : AtomChar b) : b.toNat < 128 := h.1
theorem aStringChar_ascii {b : UInt8} (h : AStringChar b) : b.toNat < 128 := by
  rcases h with h | h
  · exact h.1
  · revert b; decide
theorem listChar_ascii {b : UInt8} (h : ListChar b) : b.toNat < 128 := by
  rcases h with h | h
  · exact h.1
  · revert b; decide

theorem isAtom_utf8 {s : Bytes} (h : IsAtom s) : isUtf8 s = true := Serde.str1_ascii (fun _ => atomChar_ascii) h

theorem reach_atom {s : Bytes} (h : IsAtom s) : Reaches (fun e => @atom e) s := .bind (.of ((C25_atom.2 s).1 h)) (.str (isAtom_utf8 h))
theorem reach_atomExt {s : Bytes} (h : Str1 AStringChar s) : Reaches (fun e => @atomExt e) s :=
  .bind (.of ((C25_atomExt.2 s).1 h)) (.str (Serde.str1_ascii (fun _ => aStringChar_ascii) h))
theorem reach_tag {s : Bytes} (h : Tag.Inv s) : Reaches (fun e => @tag e) s :=
  .bind (.of ((C25_tag.2 s).1 h)) (.str (Serde.str1_ascii (fun _ h => aStringChar_ascii h.1) h))
theorem reach_text {s : Bytes} (h : Str1 TextChar s) : Reaches (fun e => @text e) s :=
  .bind (.of ((C25_text.2 s).1 h)) (.str (Serde.str1_ascii (fun _ h => h.1) h))
theorem reach_listCharString {s : Bytes} (h : Str1 ListChar s) : Reaches (fun e => @listCharString e) s :=
  .bind (.of ((C25_listCharString.2 s).1 h)) (.str (Serde.str1_ascii (fun _ => listChar_ascii) h))
theorem reach_quoted {s : Bytes} (h : ∀ b ∈ s, TextChar b) : Reaches (fun e => @quoted e) s :=
  .bind (.of ((C25_quoted s).1 h)) (.str (Serde.ascii_utf8 fun b hb => (h b hb).1))

theorem reach_bool {b : Bool} : Reaches (fun _ => bool) b := .any trivial
theorem reach_u32 {n : Nat} (h : n < 2 ^ 32) : Reaches (fun _ => u32) n := .any h
theorem reach_u64 {n : Nat} (h : n < 2 ^ 64) : Reaches (fun _ => u64) n := .any h
theorem reach_nz32 {n : Nat} (h : NZ32 n) : Reaches (fun _ => nz32) n := .any h
theorem reach_nz64 {n : Nat} (h : NZ64 n) : Reaches (fun _ => nz64) n := .any h
theorem reach_mode {m : Mode} : Reaches (fun _ => mode) m := by
  cases m
  · exact .head (.pure rfl)
  · exact .tail (.head (.pure rfl))

/-- Leaves of `reach`. -/
syntax "reach_leaf" : tactic

macro_rules | `(tactic| reach_leaf) => `(tactic| first
  | exact reach_bool | exact reach_mode | exact .bytes
  | exact reach_atom (by assumption) | exact reach_atomExt (by assumption) | exact reach_tag (by assumption)
  | exact reach_text (by assumption) | exact reach_listCharString (by assumption) | exact reach_quoted (by assumption)
  | exact reach_u32 (by assumption) | exact reach_u64 (by assumption) | exact reach_nz32 (by assumption) | exact reach_nz64 (by assumption))

/-- A sequence of generators whose results are the parts of the value. -/
macro "reach" : tactic => `(tactic| (
  repeat' first
    | with_reducible exact Reaches.pure rfl
    | with_reducible apply Reaches.bind
    | with_reducible refine Reaches.onlyIf (by assumption) ?_
  all_goals try reach_leaf))

/-- One of several variants. -/
macro "reach_one" n:num : tactic => `(tactic| (
  iterate $n apply Reaches.tail
  apply Reaches.head
  reach))

theorem reach_quotedChar {b : UInt8} (h : TextChar b) : Reaches (fun _ => quotedChar) b := by
  have hb : (Char.ofNat b.toNat).toNat = b.toNat := by
    have : b.toNat.isValidChar := .inl (by have := h.1; omega)
    simp [Char.ofNat, this, Char.toNat, Char.ofNatAux]
  exact .bind (.of ((C25_quotedChar (Char.ofNat b.toNat) b).2 ⟨by rw [hb]; exact h.1, hb.symm, h⟩)) (.any trivial)

theorem reach_literal {l : Literal} (h : Literal.Inv .rt l) : Reaches (fun e => @literal e) l := by
  rcases l with ⟨d, m⟩
  exact .bind (.bind (.bind (.pure rfl) reach_mode) (.of ((C25_literal d).1 fun b hb e => h.1 (e ▸ hb)))) .bytes

theorem reach_literal8 {l : Literal8} (_ : Literal8.Inv .rt l) : Reaches (fun e => @literal8 e) l := by
  rcases l with ⟨d, m⟩
  exact .bind (.bind (.pure rfl) reach_mode) .bytes

variable [q : Quirks]

theorem reach_istring {s : IString} (h : IString.Inv .rt s) : Reaches (fun e => @istring e q) s := by
  unfold istring
  split
  · cases s with
    | quoted s => exact .intIn 0 (by omega) (by omega) (.bind (.pure rfl) (reach_quoted h))
    | literal l => exact .intIn 2 (by omega) (by omega) (.bind (.pure rfl) (reach_literal h))
    | quotedUtf8 s =>
      refine .intIn 1 (by omega) (by omega) (.bind (a := s) ?_ (.str h.2.1))
      have hv : Quoted.tryFrom s = (Quoted.validate s).bind fun _ => fromUtf8Unwrap s := rfl
      obtain ⟨c, hc, hn⟩ := h.2.2.1 rfl
      rcases all_or_firstBad TextChar s with ha | ⟨b, i, hb⟩
      · exact absurd (ha c hc) hn
      · have := (C25_quoted s).2 b i hb
        rw [hv] at this
        cases he : Quoted.validate s with
        | ok _ =>
          rw [he] at this
          simp only [Made.bind, fromUtf8Unwrap, h.2.1, if_true] at this
          cases this
        | err _ => exact .pure rfl
        | panicked => rw [he] at this; cases this
  · rename_i hu
    cases s with
    | quoted s => exact .intIn 0 (by omega) (by omega) (.bind (.pure rfl) (reach_quoted h))
    | literal l => exact .intIn 1 (by omega) (by omega) (.bind (.pure rfl) (reach_literal h))
    | quotedUtf8 s => exact absurd h.1 hu

theorem reach_nstring {s : NString} (h : NString.Inv .rt s) : Reaches (fun e => @nstring e q) s := .ofOpt (fun _ => reach_istring) h

macro_rules | `(tactic| reach_leaf) => `(tactic| first
  | exact reach_quotedChar (by assumption) | exact reach_literal (by assumption) | exact reach_literal8 (by assumption)
  | exact reach_istring (by assumption) | exact reach_nstring (by assumption))

theorem reach_astring {s : AString} (h : AString.Inv .rt s) : Reaches (fun e => @astring e q) s := by
  cases s with
  | atom s => have h : Str1 AStringChar s := h; reach_one 0
  | string s => have h : IString.Inv .rt s := h; reach_one 1

omit q in
theorem reach_charset {s : Charset} (h : Charset.Inv s) : Reaches (fun e => @charset e) s := by
  cases s with
  | atom s => have h : IsAtom s := h; reach_one 0
  | quoted s => have h : ∀ b ∈ s, TextChar b := h; reach_one 1

omit q in
theorem reach_literalOrLiteral8 {s : LiteralOrLiteral8} (h : LiteralOrLiteral8.Inv .rt s) : Reaches (fun e => @literalOrLiteral8 e) s := by
  cases s with
  | literal s => have h : Literal.Inv .rt s := h; reach_one 0
  | literal8 s => have h : Literal8.Inv .rt s := h; reach_one 1

theorem reach_nstring8 {s : NString8} (h : NString8.Inv .rt s) : Reaches (fun e => @nstring8 e q) s := by
  cases s with
  | nstring s => have h : NString.Inv .rt s := h; reach_one 0
  | literal8 s => have h : Literal8.Inv .rt s := h; reach_one 1

theorem reach_mailbox {m : Mailbox} (h : Mailbox.Inv .rt m ∧ SimplestForm m) : Reaches (fun e => @mailbox e) m := by
  have key : ∀ s, AString.tryFrom s.content = .ok s → Mailbox.ofAString s = m → isUtf8 s.content = true → Reaches (fun e => @mailbox e) m := by
    intro s hs hm hu
    refine .bind (.of ?_) (.str hu)
    simp only [Mailbox.tryFrom, hs, Made.bind_ok, Mailbox.fromAString_eq, hm]
  obtain ⟨h, hf⟩ := h
  cases m with
  | inbox =>
    refine .bind (a := b!"inbox") (.of ?_) (.str (by decide))
    with_unfolding_all rfl
  | other s =>
    have hm : Mailbox.ofAString s = .other s := by
      unfold Mailbox.ofAString
      rw [if_neg fun e => h.2 (List.mem_singleton.2 (isInbox_iff.1 e))]
    obtain ⟨h1, h2, h3, -⟩ := C25_astring s.content
    cases s with
    | atom s => exact key _ (h1 h.1) hm (Serde.str1_ascii (fun _ => aStringChar_ascii) h.1)
    | string s =>
      cases s with
      | quoted s => exact key _ (h2 hf h.1) hm (Serde.ascii_utf8 fun b hb => (h.1 b hb).1)
      | literal l =>
        rcases l with ⟨d, md⟩
        obtain ⟨rfl, hu, hx⟩ := hf
        exact key _ (h3 hx h.1.1) hm hu
      | quotedUtf8 s => exact hf.elim

macro_rules | `(tactic| reach_leaf) => `(tactic| first
  | exact reach_astring (by assumption) | exact reach_charset (by assumption) | exact reach_literalOrLiteral8 (by assumption)
  | exact reach_nstring8 (by assumption) | exact reach_mailbox ⟨by assumption, by assumption⟩)

theorem reach_listMailbox {m : ListMailbox} (h : ListMailbox.Inv .rt m) : Reaches (fun e => @listMailbox e q) m := by
  cases m with
  | token s => have h : Str1 ListChar s := h; reach_one 0
  | string s => have h : IString.Inv .rt s := h; reach_one 1

omit q in
/-- Conversions of atoms. -/
theorem Reaches.ofAtomText {α : Type} {valid : α → Prop} {print : α → Bytes} {parse : Bytes → Made ValidationError α}
    (h : TextForm IsAtom valid print parse) {a : α} (ha : valid a) : Reaches (fun e => do Arb.of (parse (← @Arb.str e))) a :=
  .ofText h ha (isAtom_utf8 ((h.accepts _).1 ⟨a, h.back a ha⟩))

omit q in
theorem Reaches.ofFlagText {α : Type} {valid : α → Prop} {print : α → Bytes} {parse : Bytes → Made ValidationError α} {mark : Bytes}
    (h : TextForm (IsFlagText mark) valid print parse) (hm : ∀ b ∈ mark, b.toNat < 128) {a : α} (ha : valid a) :
    Reaches (fun e => do Arb.of (parse (← @Arb.str e))) a := by
  refine .ofText h ha ?_
  rcases (h.accepts _).1 ⟨a, h.back a ha⟩ with h | ⟨s, hs, e⟩
  · exact isAtom_utf8 h
  · rw [e]
    refine Serde.ascii_utf8 fun b hb => ?_
    rcases List.mem_append.1 hb with hb | hb
    · exact hm b hb
    · exact (hs.2 b hb).1

omit q in
theorem reach_flag {f : Flag} (h : Flag.Inv f) : Reaches (fun e => @flag e) f := .ofFlagText C54_flag (by decide) h
omit q in
theorem reach_attributeFlag {f : AttributeFlag} (h : AttributeFlag.Inv f) : Reaches (fun e => @attributeFlag e) f :=
  .ofFlagText C54_attributeFlag (by decide) h
omit q in
theorem reach_resource {f : Resource} (h : Resource.Inv f) : Reaches (fun e => @resource e) f := .ofAtomText C54_resource h
omit q in
theorem reach_mechanism {f : AuthMechanism} (h : AuthMechanism.Inv .rt f) : Reaches (fun e => @mechanism e) f := .ofAtomText C54_mechanism_partial h
theorem reach_capabilityEnable {f : CapabilityEnable} (h : CapabilityEnable.Inv f) : Reaches (fun e => @capabilityEnable e q) f := .ofAtomText C54_enable h

theorem reach_capability {c : Capability} (h : Capability.Inv .rt c) : Reaches (fun e => @capability e q) c := by
  obtain ⟨h1, h2⟩ := Capability.name_ofAtom ((Capability.inv_iff c).2 h)
  exact .bind (.pure h2.symm) (reach_atom ((Spec.isAtom_iff _).1 h1))

omit q in
theorem reach_threadingAlgorithm {c : ThreadingAlgorithm} (h : ThreadingAlgorithm.Inv c) : Reaches (fun e => @threadingAlgorithm e) c := by
  obtain ⟨h1, h2⟩ := ThreadingAlgorithm.name_ofAtom ((ThreadingAlgorithm.inv_iff c).2 h)
  exact .bind (.pure h2.symm) (reach_atom ((Spec.isAtom_iff _).1 h1))

omit q in
theorem reach_flagNameAttribute {f : FlagNameAttribute} (h : FlagNameAttribute.Inv f) : Reaches (fun e => @flagNameAttribute e) f := by
  have key : ∀ a, IsAtom a → FlagNameAttribute.ofAtom a = f → Reaches (fun e => @flagNameAttribute e) f :=
    fun a ha e => .bind (.pure e.symm) (reach_atom ha)
  have lit : ∀ a, isAtom a = true → IsAtom a := fun a => (Spec.isAtom_iff a).1
  cases f with
  | extension s =>
    have := (FlagNameAttribute.inv_iff (.extension s)).2 h
    simp only [FlagNameAttribute.valid, Bool.and_eq_true, beq_iff_eq] at this
    exact key s h.1 this.2
  | noinferiors => exact key b!"noinferiors" (lit _ (by decide)) (by decide)
  | noselect => exact key b!"noselect" (lit _ (by decide)) (by decide)
  | marked => exact key b!"marked" (lit _ (by decide)) (by decide)
  | unmarked => exact key b!"unmarked" (lit _ (by decide)) (by decide)

macro_rules | `(tactic| reach_leaf) => `(tactic| first
  | exact reach_flag (by assumption) | exact reach_attributeFlag (by assumption) | exact reach_resource (by assumption)
  | exact reach_mechanism (by assumption) | exact reach_threadingAlgorithm (by assumption) | exact reach_listMailbox (by assumption))

omit q in
theorem reach_flagFetch {f : FlagFetch} (h : FlagFetch.Inv .rt f) : Reaches (fun e => @flagFetch e) f := by
  cases f with
  | flag f => have h := h.1; reach_one 0
  | recent => reach_one 1

omit q in
theorem reach_flagPerm {f : FlagPerm} (h : FlagPerm.Inv f) : Reaches (fun e => @flagPerm e) f := by
  cases f with
  | flag f => have h : Flag.Inv f := h; reach_one 0
  | asterisk => reach_one 1

/-! ### Numbers, sequence sets and dates -/

omit q in
theorem dateTime_ok (t : DateTime) : dateTime (.ok t) ↔ DateTime.Inv t ∧ 0 ≤ t.offset := by
  constructor
  · intro h
    refine ⟨(Has.sat (g := dateTime)).2 t h, ?_⟩
    simp only [dateTime, ok_bind] at h
    obtain ⟨y, _, m, _, d, _, h⟩ := h
    cases hd : fromYmdOpt y m d with
    | none =>
      rw [hd] at h
      cases h
    | some date =>
      rw [hd] at h
      simp only [ok_bind] at h
      obtain ⟨secs, _, nanos, _, hours, _, minutes, _, h⟩ := h
      split at h
      · cases h
      · split at h
        · cases h
        · split at h
          · cases h
          · rw [ok_pure.1 h]
            exact Int.natCast_nonneg _
  · rintro ⟨h, h0⟩
    obtain ⟨⟨hy, hm, hm', hd, hd'⟩, hh, hmi, hs, -, ho, hz⟩ := h
    have hdate : fromYmdOpt t.date.year t.date.month t.date.day = some t.date :=
      (fromYmdOpt_eq_some (by omega)).2 ⟨rfl, (NaiveDate.inv_iff _).2 ⟨hy, hm, hm', hd, hd'⟩⟩
    have hd31 : t.date.day ≤ 31 := by
      refine Nat.le_trans hd' ?_
      unfold monthDays
      split <;> split <;> omega
    simp only [dateTime, ok_bind]
    refine ⟨t.date.year, ok_any.2 ⟨by omega, by omega⟩, t.date.month, ok_any.2 ⟨hm, hm'⟩, t.date.day, ok_any.2 ⟨hd, hd31⟩, ?_⟩
    rw [hdate]
    simp only [ok_bind]
    refine ⟨t.hour * 3600 + t.minute * 60 + t.second, ok_any.2 (by omega), 0, ok_any.2 (by omega), ?_⟩
    obtain ⟨o, e⟩ : ∃ o : Nat, (o : Int) = t.offset := ⟨t.offset.toNat, by omega⟩
    have hb : ∃ a b : Nat, a ≤ 23 * 3600 ∧ b ≤ 59 ∧ a + b * 60 = o := by
      by_cases h : o ≤ 23 * 3600
      · exact ⟨o, 0, h, by omega, by omega⟩
      · exact ⟨o - 59 * 60, 59, by omega, by omega, by omega⟩
    obtain ⟨a, b, ha, hb, hab⟩ := hb
    refine ⟨a, ok_any.2 ⟨by omega, ha⟩, b, ok_any.2 ⟨by omega, hb⟩, ?_⟩
    rw [hab, if_neg (by omega), if_neg (by simp), if_neg (by omega), ok_pure]
    rcases t with ⟨date, hour, minute, second, offset⟩
    simp only at *
    subst e
    congr 1 <;> omega

omit q in
theorem reach_dateTime {t : DateTime} (h : DateTime.Inv t ∧ NotWest t) : Reaches (fun _ => dateTime) t := .const ((dateTime_ok t).2 h)

omit q in
theorem reach_naiveDate {d : NaiveDate} (h : NaiveDate.Inv d) : Reaches (fun _ => naiveDate) d := by
  have hd : fromYmdOpt d.year d.month d.day = some d := (fromYmdOpt_eq_some (by have := h.1; omega)).2 ⟨rfl, (NaiveDate.inv_iff _).2 h⟩
  refine .bind (a := some d) ?_ (.any fun x hx => ?_)
  · simp only [h.1, if_true]
    exact .pure rfl
  · cases hx
    exact ⟨_, _, _, hd⟩

omit q in
theorem reach_seqOrUid {s : SeqOrUid} (h : SeqOrUid.Inv s) : Reaches (fun _ => seqOrUid) s := by
  cases s with
  | value n => have h : NZ32 n := h; reach_one 0
  | asterisk => reach_one 1

omit q in
theorem reach_sequence {s : Sequence} (h : Sequence.Inv s) : Reaches (fun _ => sequence) s := by
  cases s with
  | single a => exact .head (.bind (.pure rfl) (reach_seqOrUid h))
  | range a b => exact .tail (.head (.bind (.bind (.pure rfl) (reach_seqOrUid h.2)) (reach_seqOrUid h.1)))

omit q in
theorem reach_sequenceSet {s : SequenceSet} (h : SequenceSet.Inv s) : Reaches (fun _ => sequenceSet) s := .ofVec1 (fun _ => reach_sequence) h

omit q in
theorem reach_part {s : List NzU32} (h : Part.Inv s) : Reaches (fun _ => part) s := .ofVec1 (fun _ => reach_nz32) h

macro_rules | `(tactic| reach_leaf) => `(tactic| first
  | exact reach_dateTime (by assumption) | exact reach_naiveDate (by assumption) | exact reach_sequenceSet (by assumption)
  | exact reach_part (by assumption) | exact .ofOpt (fun _ => reach_part) (by assumption)
  | exact .ofVec (fun _ => reach_nz32) (by assumption) | exact .ofVec1 (fun _ => reach_astring) (by assumption))

/-! ### Fetch -/

theorem reach_section {s : Section} (h : Section.Inv .rt s) : Reaches (fun e => @section_ e q) s := by
  cases s with
  | part p => have h : Part.Inv p := h; reach_one 0
  | header p => have h : Opt Part.Inv p := h; reach_one 1
  | headerFields p fs => obtain ⟨h1, h2⟩ := h; reach_one 2
  | headerFieldsNot p fs => obtain ⟨h1, h2⟩ := h; reach_one 3
  | text p => have h : Opt Part.Inv p := h; reach_one 4
  | mime p => have h : Part.Inv p := h; reach_one 5

omit q in
theorem reach_partial {s : Option (Nat × NzU32)} (h : Opt Partial.Inv s) : Reaches (fun _ => partial_) s := by
  refine .opt fun a ha => ?_
  obtain ⟨h1, h2⟩ := h a ha
  rcases a with ⟨a, b⟩
  reach

macro_rules | `(tactic| reach_leaf) => `(tactic| first
  | exact reach_section (by assumption) | exact reach_partial (by assumption) | exact .ofOpt (fun _ => reach_section) (by assumption))

theorem reach_itemName {s : MessageDataItemName} (h : MessageDataItemName.Inv .rt s) : Reaches (fun e => @messageDataItemName e q) s := by
  cases s with
  | body => reach_one 0
  | bodyExt s p b => obtain ⟨h1, h2⟩ := h; reach_one 1
  | bodyStructure => reach_one 2
  | envelope => reach_one 3
  | flags => reach_one 4
  | internalDate => reach_one 5
  | rfc822 => reach_one 6
  | rfc822Header => reach_one 7
  | rfc822Size => reach_one 8
  | rfc822Text => reach_one 9
  | uid => reach_one 10
  | binary s p b => obtain ⟨h1, h2⟩ := h; reach_one 11
  | binarySize s => have h : All NZ32 s := h; reach_one 12
  | modSeq => have h : q.extCondstoreQresync = true := h; reach_one 13

theorem reach_macroOrNames {s : MacroOrNames} (h : MacroOrNames.Inv .rt s) : Reaches (fun e => @macroOrNames e q) s := by
  cases s with
  | macro_ m =>
    refine .head (.bind (.pure rfl) ?_)
    cases m with
    | fast => reach_one 0
    | all => reach_one 1
    | full => reach_one 2
  | names l => exact .tail (.head (.bind (.pure rfl) (.ofVec (fun _ => reach_itemName) h)))

/-! ### Search keys -/

omit q in
theorem reach_entryTypeReq {s : EntryTypeReq} : Reaches (fun _ => entryTypeReq) s := by
  cases s with
  | private_ => reach_one 0
  | shared => reach_one 1
  | all => reach_one 2

omit q in
theorem Reaches.nonEmptyOr {α : Type} {leaf : Entropy → Gen α} {l : List α} (h : l ≠ []) : Reaches (fun e => nonEmptyOr l (leaf e)) l := by
  refine ⟨0, fun e _ _ => ?_⟩
  show Arb.nonEmptyOr l (leaf e) (.ok l)
  unfold Arb.nonEmptyOr
  rw [if_neg (by simpa using h), vecN_of (List.length_pos_iff.2 h)]
  exact ok_pure.2 rfl

/-- One of the numbered variants. -/
macro "reach_nth" n:num : tactic => `(tactic| (
  refine Reaches.intIn $n (by omega) (by omega) ?_
  try simp only
  reach))

theorem reach_searchKeyLeaf {k : SearchKey} (h : SearchKey.Inv .rt k) (hw : KeyWithin 0 k) : Reaches (fun e => @searchKeyLeaf e q) k := by
  unfold searchKeyLeaf
  cases k with
  | and l => exact absurd hw.1 (by omega)
  | or a b => exact absurd hw.1 (by omega)
  | not k => exact absurd hw.1 (by omega)
  | modSequence e n => exact absurd hw (by simp [KeyWithin])
  | sequenceSet s => have h : SequenceSet.Inv s := h; reach_nth 0
  | all => reach_nth 1
  | answered => reach_nth 2
  | bcc s => have h : AString.Inv .rt s := h; reach_nth 3
  | before d => have h : NaiveDate.Inv d := h; reach_nth 4
  | body s => have h : AString.Inv .rt s := h; reach_nth 5
  | cc s => have h : AString.Inv .rt s := h; reach_nth 6
  | deleted => reach_nth 7
  | draft => reach_nth 8
  | flagged => reach_nth 9
  | from_ s => have h : AString.Inv .rt s := h; reach_nth 10
  | header n v => have h1 := h.1; have h2 := h.2; reach_nth 11
  | keyword a => have h : IsAtom a := h; reach_nth 12
  | larger n => have h : n < 2 ^ 32 := h; reach_nth 13
  | new => reach_nth 14
  | old => reach_nth 15
  | on d => have h : NaiveDate.Inv d := h; reach_nth 16
  | recent => reach_nth 17
  | seen => reach_nth 18
  | sentBefore d => have h : NaiveDate.Inv d := h; reach_nth 19
  | sentOn d => have h : NaiveDate.Inv d := h; reach_nth 20
  | sentSince d => have h : NaiveDate.Inv d := h; reach_nth 21
  | since d => have h : NaiveDate.Inv d := h; reach_nth 22
  | smaller n => have h : n < 2 ^ 32 := h; reach_nth 23
  | subject s => have h : AString.Inv .rt s := h; reach_nth 24
  | text s => have h : AString.Inv .rt s := h; reach_nth 25
  | «to» s => have h : AString.Inv .rt s := h; reach_nth 26
  | uid s => have h : SequenceSet.Inv s := h; reach_nth 27
  | unanswered => reach_nth 28
  | undeleted => reach_nth 29
  | undraft => reach_nth 30
  | unflagged => reach_nth 31
  | unkeyword a => have h : IsAtom a := h; reach_nth 32
  | unseen => reach_nth 33

omit q in
theorem KeyWithin.go_iff {n : Nat} : ∀ {l : List SearchKey}, KeyWithin.go n l ↔ ∀ k ∈ l, KeyWithin n k
  | [] => by simp [KeyWithin.go]
  | k :: l => by simp [KeyWithin.go, KeyWithin.go_iff (l := l)]

theorem searchKey_go_iff {L : Level} : ∀ {l : List SearchKey}, SearchKey.Inv.go L l ↔ ∀ k ∈ l, SearchKey.Inv L k
  | [] => by simp [SearchKey.Inv.go]
  | k :: l => by simp [SearchKey.Inv.go, searchKey_go_iff (l := l)]

theorem reach_searchKeyLimited : ∀ (d : Nat) {k : SearchKey}, SearchKey.Inv .rt k → KeyWithin d k → Reaches (fun e => @searchKeyLimited e q d) k
  | 0, k, h, hw => reach_searchKeyLeaf h hw
  | d + 1, k, h, hw => by
    unfold searchKeyLimited
    have i36 : ∀ i, i ≤ 36 → i ≤ (if q.extCondstoreQresync = true then 37 else 36) := fun i hi => by split <;> omega
    have ih := @reach_searchKeyLimited d
    cases k with
    | and l =>
      obtain ⟨h1, h2⟩ := h
      have h2 := searchKey_go_iff.1 h2
      have hw := KeyWithin.go_iff.1 hw.2
      exact .intIn 0 (by omega) (i36 _ (by omega)) (.bind (.bind (.pure rfl) (.nonEmptyOr h1)) (.vec fun k hk => ih (h2 k hk) (hw k hk)))
    | not k => exact .intIn 16 (by omega) (i36 _ (by omega)) (.bind (.pure rfl) (ih h hw.2))
    | or a b => exact .intIn 19 (by omega) (i36 _ (by omega)) (.bind (.bind (.pure rfl) (ih h.2 hw.2.2)) (ih h.1 hw.2.1))
    | modSequence e n =>
      obtain ⟨h1, h2, h3⟩ := h
      refine .intIn 37 (by omega) (by simp [show q.extCondstoreQresync = true from h1]) ?_
      simp only [show q.extCondstoreQresync = true from h1, if_true]
      refine .bind (.bind (.pure rfl) (reach_u64 h3)) (.opt fun x hx => ?_)
      rcases x with ⟨f, t⟩
      exact .bind (.bind (.pure rfl) reach_entryTypeReq) (reach_attributeFlag (h2 _ hx))
    | sequenceSet s => exact .intIn 1 (by omega) (i36 _ (by omega)) (.bind (.pure rfl) (reach_sequenceSet h))
    | all => exact .intIn 2 (by omega) (i36 _ (by omega)) (.pure rfl)
    | answered => exact .intIn 3 (by omega) (i36 _ (by omega)) (.pure rfl)
    | bcc s => exact .intIn 4 (by omega) (i36 _ (by omega)) (.bind (.pure rfl) (reach_astring h))
    | before d => exact .intIn 5 (by omega) (i36 _ (by omega)) (.bind (.pure rfl) (reach_naiveDate h))
    | body s => exact .intIn 6 (by omega) (i36 _ (by omega)) (.bind (.pure rfl) (reach_astring h))
    | cc s => exact .intIn 7 (by omega) (i36 _ (by omega)) (.bind (.pure rfl) (reach_astring h))
    | deleted => exact .intIn 8 (by omega) (i36 _ (by omega)) (.pure rfl)
    | draft => exact .intIn 9 (by omega) (i36 _ (by omega)) (.pure rfl)
    | flagged => exact .intIn 10 (by omega) (i36 _ (by omega)) (.pure rfl)
    | from_ s => exact .intIn 11 (by omega) (i36 _ (by omega)) (.bind (.pure rfl) (reach_astring h))
    | header n v => exact .intIn 12 (by omega) (i36 _ (by omega)) (.bind (.bind (.pure rfl) (reach_astring h.2)) (reach_astring h.1))
    | keyword a => exact .intIn 13 (by omega) (i36 _ (by omega)) (.bind (.pure rfl) (reach_atom h))
    | larger n => exact .intIn 14 (by omega) (i36 _ (by omega)) (.bind (.pure rfl) (reach_u32 h))
    | new => exact .intIn 15 (by omega) (i36 _ (by omega)) (.pure rfl)
    | old => exact .intIn 17 (by omega) (i36 _ (by omega)) (.pure rfl)
    | on d => exact .intIn 18 (by omega) (i36 _ (by omega)) (.bind (.pure rfl) (reach_naiveDate h))
    | recent => exact .intIn 20 (by omega) (i36 _ (by omega)) (.pure rfl)
    | seen => exact .intIn 21 (by omega) (i36 _ (by omega)) (.pure rfl)
    | sentBefore d => exact .intIn 22 (by omega) (i36 _ (by omega)) (.bind (.pure rfl) (reach_naiveDate h))
    | sentOn d => exact .intIn 23 (by omega) (i36 _ (by omega)) (.bind (.pure rfl) (reach_naiveDate h))
    | sentSince d => exact .intIn 24 (by omega) (i36 _ (by omega)) (.bind (.pure rfl) (reach_naiveDate h))
    | since d => exact .intIn 25 (by omega) (i36 _ (by omega)) (.bind (.pure rfl) (reach_naiveDate h))
    | smaller n => exact .intIn 26 (by omega) (i36 _ (by omega)) (.bind (.pure rfl) (reach_u32 h))
    | subject s => exact .intIn 27 (by omega) (i36 _ (by omega)) (.bind (.pure rfl) (reach_astring h))
    | text s => exact .intIn 28 (by omega) (i36 _ (by omega)) (.bind (.pure rfl) (reach_astring h))
    | «to» s => exact .intIn 29 (by omega) (i36 _ (by omega)) (.bind (.pure rfl) (reach_astring h))
    | uid s => exact .intIn 30 (by omega) (i36 _ (by omega)) (.bind (.pure rfl) (reach_sequenceSet h))
    | unanswered => exact .intIn 31 (by omega) (i36 _ (by omega)) (.pure rfl)
    | undeleted => exact .intIn 32 (by omega) (i36 _ (by omega)) (.pure rfl)
    | undraft => exact .intIn 33 (by omega) (i36 _ (by omega)) (.pure rfl)
    | unflagged => exact .intIn 34 (by omega) (i36 _ (by omega)) (.pure rfl)
    | unkeyword a => exact .intIn 35 (by omega) (i36 _ (by omega)) (.bind (.pure rfl) (reach_atom h))
    | unseen => exact .intIn 36 (by omega) (i36 _ (by omega)) (.pure rfl)

omit q in
/-- The choice between the simplified and the full generator. -/
theorem Reaches.full {α : Type} {s g : Entropy → Gen α} {a : α} (h : Reaches g a) : Reaches (fun e => if e.simplified = true then s e else g e) a := by
  obtain ⟨n, hn⟩ := h
  exact ⟨n, fun e he hs => by simpa [hs] using hn e he hs⟩

theorem reach_criteria {l : List SearchKey} (h : Criteria.Inv .rt l) (hw : KeysWithin l) : Reaches (fun e => vec1 (@searchKey q e)) l :=
  .vec1 h.1 fun k hk => .full (reach_searchKeyLimited 7 (h.2 k hk).1 (hw k hk))

/-! ### Commands -/

omit q in
theorem all_nil {α : Type} {P : α → Prop} {b : Bool} (hP : ∀ a, P a → b = true) {l : List α} (h : All P l) (hb : b = false) : l = [] := by
  cases l with
  | nil => rfl
  | cons a l =>
    have := hP a (h a (by simp))
    rw [hb] at this
    cases this

theorem reach_selectParameter {p : SelectParameter} (h : SelectParameter.Inv p) : Reaches (fun _ => selectParameter) p := by
  cases p with
  | condStore => reach_one 0
  | qresync u m k s =>
    obtain ⟨-, h1, h2, h3, h4⟩ := h
    refine .tail (.head (.bind (.bind (.bind (.bind (.pure rfl) (.opt fun x hx => ?_)) (.ofOpt (fun _ => reach_sequenceSet) h3)) (reach_nz64 h2))
      (reach_nz32 h1)))
    rcases x with ⟨a, b⟩
    exact .bind (.bind (.pure rfl) (reach_sequenceSet (h4 _ hx).2)) (reach_sequenceSet (h4 _ hx).1)

theorem reach_selectParameters {l : List SelectParameter} (h : All SelectParameter.Inv l) :
    Reaches (fun _ => field q.extCondstoreQresync [] (vec selectParameter)) l :=
  .field (all_nil (fun a ha => by cases a; exacts [ha, ha.1]) h) (.ofVec (fun _ => reach_selectParameter) h)

theorem reach_fetchModifiers {l : List FetchModifier} (h : All FetchModifier.Inv l) :
    Reaches (fun _ => field q.extCondstoreQresync [] (vec fetchModifier)) l := by
  refine .field (all_nil (fun a ha => by cases a; exacts [ha.1, ha]) h) (.ofVec (fun m hm => ?_) h)
  cases m with
  | changedSince n => exact .head (.bind (.pure rfl) (reach_nz64 hm.2))
  | vanished => exact .tail (.head (.pure rfl))

theorem reach_storeModifiers {l : List StoreModifier} (h : All StoreModifier.Inv l) :
    Reaches (fun _ => field q.extCondstoreQresync [] (vec u64)) l :=
  .field (all_nil (fun _ ha => ha.1) h) (.ofVec (fun _ hm => reach_u64 hm.2) h)

theorem reach_statusDataItemName {s : StatusDataItemName} (h : StatusDataItemName.Inv s) : Reaches (fun _ => statusDataItemName) s := by
  cases s with
  | messages => reach_one 0
  | recent => reach_one 1
  | uidNext => reach_one 2
  | uidValidity => reach_one 3
  | unseen => reach_one 4
  | deleted => reach_one 5
  | deletedStorage => reach_one 6
  | highestModSeq => have h : q.extCondstoreQresync = true := h; reach_one 7

omit q in
theorem reach_quotaSet {s : QuotaSet} (h : QuotaSet.Inv s) : Reaches (fun e => @quotaSet e) s := by
  obtain ⟨h1, h2⟩ := h
  exact .bind (.bind (.pure rfl) (reach_u64 h2)) (reach_resource h1)

omit q in
theorem reach_sortCriterion {s : SortCriterion} : Reaches (fun _ => sortCriterion) s := by
  rcases s with ⟨r, k⟩
  refine .bind (.bind (.pure rfl) ?_) reach_bool
  cases k with
  | arrival => reach_one 0
  | cc => reach_one 1
  | date => reach_one 2
  | from_ => reach_one 3
  | size => reach_one 4
  | subject => reach_one 5
  | «to» => reach_one 6
  | displayFrom => reach_one 7
  | displayTo => reach_one 8

omit q in
theorem reach_storeType {s : StoreType} : Reaches (fun _ => storeType) s := by
  cases s with
  | replace => reach_one 0
  | add => reach_one 1
  | remove => reach_one 2

omit q in
theorem reach_storeResponse {s : StoreResponse} : Reaches (fun _ => storeResponse) s := by
  cases s with
  | answer => reach_one 0
  | silent => reach_one 1

theorem reach_idParams {s : Option IdParams} (h : Opt (IdParams.Inv .rt) s) : Reaches (fun e => @idParams e q) s := by
  refine .ofOpt (fun l hl => .ofVec (fun x hx => ?_) hl) h
  rcases x with ⟨a, b⟩
  exact .bind (.bind (.pure rfl) (reach_nstring hx.2)) (reach_istring hx.1)

theorem reach_entryValue {s : EntryValue} (h : EntryValue.Inv .rt s) : Reaches (fun e => @entryValue e q) s := by
  obtain ⟨h1, h2⟩ := h
  exact .bind (.bind (.pure rfl) (reach_nstring8 h2)) (reach_astring h1)

omit q in
theorem reach_getMetadataOption {s : GetMetadataOption} (h : GetMetadataOption.Inv s) : Reaches (fun _ => getMetadataOption) s := by
  cases s with
  | maxSize n => exact .head (.bind (.pure rfl) (reach_u32 h))
  | depthNull => exact .tail (.head (.head (.pure rfl)))
  | depthOne => exact .tail (.head (.tail (.head (.pure rfl))))
  | depthInfinity => exact .tail (.head (.tail (.tail (.head (.pure rfl)))))

macro_rules | `(tactic| reach_leaf) => `(tactic| first
  | exact reach_criteria (by assumption) (by assumption) | exact reach_macroOrNames (by assumption)
  | exact reach_selectParameters (by assumption) | exact reach_fetchModifiers (by assumption) | exact reach_storeModifiers (by assumption)
  | exact reach_storeType | exact reach_storeResponse | exact reach_idParams (by assumption)
  | exact .ofVec (fun _ => reach_statusDataItemName) (by assumption) | exact .ofVec (fun _ => reach_flag) (by assumption)
  | exact .ofVec (fun _ => reach_quotaSet) (by assumption) | exact .ofVec (fun _ => reach_getMetadataOption) (by assumption)
  | exact .ofVec1 (fun _ => reach_capabilityEnable) (by assumption) | exact .ofVec1 (fun _ => reach_entryValue) (by assumption)
  | exact .opt (fun _ _ => .bytes) | exact .ofOpt (fun _ => reach_charset) (by assumption)
  | exact .vec1 (by assumption) fun _ _ => reach_sortCriterion)

theorem reach_commandBody {c : CommandBody} (h : CommandBody.Inv .rt c) (ht : TypicalCommand c) : Reaches (fun e => @commandBody e q) c := by
  cases c with
  | capability => reach_one 0
  | noop => reach_one 1
  | logout => reach_one 2
  | startTls => have h : q.starttls = true := h; reach_one 3
  | authenticate m ir => have h : AuthMechanism.Inv .rt m := h; reach_one 4
  | login u p => obtain ⟨h1, h2⟩ := h; reach_one 5
  | select m p => obtain ⟨h1, h2⟩ := h; have ht : SimplestForm m := ht; reach_one 6
  | unselect => reach_one 7
  | examine m p => obtain ⟨h1, h2⟩ := h; have ht : SimplestForm m := ht; reach_one 8
  | create m => have h : Mailbox.Inv .rt m := h; have ht : SimplestForm m := ht; reach_one 9
  | delete m => have h : Mailbox.Inv .rt m := h; have ht : SimplestForm m := ht; reach_one 10
  | rename a b => obtain ⟨h1, h2⟩ := h; obtain ⟨t1, t2⟩ := ht; reach_one 11
  | subscribe m => have h : Mailbox.Inv .rt m := h; have ht : SimplestForm m := ht; reach_one 12
  | unsubscribe m => have h : Mailbox.Inv .rt m := h; have ht : SimplestForm m := ht; reach_one 13
  | list m w => obtain ⟨h1, h2⟩ := h; have ht : SimplestForm m := ht; reach_one 14
  | lsub m w => obtain ⟨h1, h2⟩ := h; have ht : SimplestForm m := ht; reach_one 15
  | status m l => obtain ⟨h1, h2⟩ := h; have ht : SimplestForm m := ht; reach_one 16
  | append m f t l =>
    obtain ⟨h1, h2, h3, h4⟩ := h
    obtain ⟨t1, t2⟩ := ht
    reach_one 17
    exact .opt fun t ht => reach_dateTime ⟨h3 t ht, t2 t ht⟩
  | check => reach_one 18
  | close => reach_one 19
  | expunge => reach_one 20
  | expungeUid s => have h : SequenceSet.Inv s := h; reach_one 21
  | search c l u => obtain ⟨h1, h2⟩ := h; have ht : KeysWithin l := ht; reach_one 22
  | sort s c l u => obtain ⟨h1, h2, h3⟩ := h; have ht : KeysWithin l := ht; reach_one 23
  | thread a c l u => obtain ⟨h1, h2, h3⟩ := h; have ht : KeysWithin l := ht; reach_one 24
  | fetch s i u m => obtain ⟨h1, h2, h3⟩ := h; reach_one 25
  | store s t r f u m => obtain ⟨h1, h2, h3⟩ := h; reach_one 26
  | copy s m u => obtain ⟨h1, h2⟩ := h; have ht : SimplestForm m := ht; reach_one 27
  | idle => reach_one 28
  | enable l => have h : All1 CapabilityEnable.Inv l := h; reach_one 29
  | compress => reach_one 30
  | getQuota r => have h : AString.Inv .rt r := h; reach_one 31
  | getQuotaRoot m => have h : Mailbox.Inv .rt m := h; have ht : SimplestForm m := ht; reach_one 32
  | setQuota r l => obtain ⟨h1, h2⟩ := h; reach_one 33
  | move s m u => obtain ⟨h1, h2⟩ := h; have ht : SimplestForm m := ht; reach_one 34
  | id p => obtain ⟨h1, h2⟩ := h; have h1 : q.extId = true := h1; reach_one 35
  | setMetadata m l => obtain ⟨h1, h2, h3⟩ := h; have h1 : q.extMetadata = true := h1; have ht : SimplestForm m := ht; reach_one 36
  | getMetadata o m l => obtain ⟨h1, h2, h3, h4⟩ := h; have h1 : q.extMetadata = true := h1; have ht : SimplestForm m := ht; reach_one 37
  | namespace_ => have h : q.extNamespace = true := h; reach_one 38

theorem reach_command {c : Command} (h : Command.Inv .rt c) (ht : TypicalCommand c.body) : Reaches (fun e => @command e q) c :=
  .bind (.bind (.pure rfl) (reach_commandBody h.2 ht)) (reach_tag h.1)

/-! ### Envelopes and body structures -/

theorem reach_address {a : Address} (h : Address.Inv .rt a) : Reaches (fun e => @address e q) a := by
  obtain ⟨h1, h2, h3, h4⟩ := h
  exact .bind (.bind (.bind (.bind (.pure rfl) (reach_nstring h4)) (reach_nstring h3)) (reach_nstring h2)) (reach_nstring h1)

macro_rules | `(tactic| reach_leaf) => `(tactic| exact .ofVec (fun _ => reach_address) (by assumption))

theorem reach_envelope {a : Envelope} (h : Envelope.Inv .rt a) : Reaches (fun e => @envelope e q) a := by
  rcases a with ⟨a1, a2, a3, a4, a5, a6, a7, a8, a9, a10⟩
  obtain ⟨h1, h2, h3, h4, h5, h6, h7, h8, h9, h10⟩ := h
  unfold envelope
  reach

theorem reach_bodyExtension {x : BodyExtension} (h : BodyExtension.Inv .rt x) (hl : ∀ l, x ≠ .list l) : Reaches (fun e => @bodyExtension q e) x := by
  refine .full ?_
  cases x with
  | nstring s => exact .intIn 1 (by omega) (by omega) (.bind (.pure rfl) (reach_nstring h))
  | number n => exact .intIn 2 (by omega) (by omega) (.bind (.pure rfl) (reach_u32 h))
  | list l => exact absurd rfl (hl l)

theorem reach_params {l : Params} (h : Params.Inv .rt l) : Reaches (fun e => @params e q) l := by
  refine .ofVec (fun x hx => ?_) h
  rcases x with ⟨a, b⟩
  exact .bind (.bind (.pure rfl) (reach_istring hx.2)) (reach_istring hx.1)

theorem reach_disposition {x : Option Disposition} (h : Opt (Disposition.Inv .rt) x) (hn : NoLists x) :
    Reaches (fun e => opt (@disposition e q)) x := by
  refine .opt fun d hd => ?_
  obtain ⟨h1, h2⟩ := h d hd
  refine .bind (.bind (.pure rfl) (.opt fun l hl => ?_)) (.opt fun x hx => ?_)
  · obtain ⟨h3, h4⟩ := h2 l hl
    refine .bind (.bind (.pure rfl) (.opt fun loc hloc => ?_)) (.ofVec (fun _ => reach_istring) h3)
    obtain ⟨h5, h6⟩ := h4 loc hloc
    exact .bind (.bind (.pure rfl) (.vec fun x hx => reach_bodyExtension (h6 x hx).1 (hn d hd l hl loc hloc x hx))) (reach_nstring h5)
  · obtain ⟨h3, h4⟩ := h1 x hx
    rcases x with ⟨a, b⟩
    exact .bind (.bind (.pure rfl) (reach_params h4)) (reach_istring h3)

theorem reach_singlePartExt {x : Option SinglePartExt} (h : Opt (SinglePartExt.Inv .rt) x) (hn : ∀ e ∈ x, NoLists e.tail) :
    Reaches (fun e => opt (@singlePartExt e q)) x :=
  .opt fun s hs => .bind (.bind (.pure rfl) (reach_disposition (h s hs).2 (hn s hs))) (reach_nstring (h s hs).1)

theorem reach_multiPartExt {x : Option MultiPartExt} (h : Opt (MultiPartExt.Inv .rt) x) (hn : ∀ e ∈ x, NoLists e.tail) :
    Reaches (fun e => opt (@multiPartExt e q)) x :=
  .opt fun s hs => .bind (.bind (.pure rfl) (reach_disposition (h s hs).2 (hn s hs))) (reach_params (h s hs).1)

theorem reach_basicFields {x : BasicFields} (h : BasicFields.Inv .rt x) : Reaches (fun e => @basicFields e q) x := by
  obtain ⟨h1, h2, h3, h4, h5⟩ := h
  exact .bind (.bind (.bind (.bind (.bind (.pure rfl) (reach_u32 h5)) (reach_istring h4)) (reach_nstring h3)) (reach_nstring h2)) (reach_params h1)

omit q in
theorem BodyWithin.go_iff {n : Nat} : ∀ {l : List BodyStructure}, BodyWithin.go n l ↔ ∀ k ∈ l, BodyWithin n k
  | [] => by simp [BodyWithin.go]
  | k :: l => by simp [BodyWithin.go, BodyWithin.go_iff (l := l)]

theorem body_go_iff {L : Level} : ∀ {l : List BodyStructure}, BodyStructure.Inv.go L l ↔ ∀ k ∈ l, BodyStructure.Inv L k
  | [] => by simp [BodyStructure.Inv.go]
  | k :: l => by simp [BodyStructure.Inv.go, body_go_iff (l := l)]

theorem reach_bodyStructureLimited : ∀ (d : Nat) {b : BodyStructure}, BodyStructure.Inv .rt b → BodyWithin d b →
    Reaches (fun e => @bodyStructureLimited e q d) b
  | 0, b, h, hw => by
    cases b with
    | basic f t s x =>
      obtain ⟨h1, h2, h3, h4⟩ := h
      exact .bind (.intIn 1 (by omega) (by omega) (.bind (.bind (.bind (.pure rfl) (reach_singlePartExt h4 hw)) (reach_istring h3))
        (reach_istring h2))) (reach_basicFields h1)
    | text f s n x =>
      obtain ⟨h1, h2, h3, h4⟩ := h
      exact .bind (.intIn 2 (by omega) (by omega) (.bind (.bind (.bind (.pure rfl) (reach_singlePartExt h4 hw)) (reach_u32 h3))
        (reach_istring h2))) (reach_basicFields h1)
    | message f e b n x => exact absurd hw.1 (by omega)
    | multi l s x => exact absurd hw.1 (by omega)
  | d + 1, b, h, hw => by
    unfold bodyStructureLimited
    cases b with
    | basic f t s x =>
      obtain ⟨h1, h2, h3, h4⟩ := h
      exact .intIn 1 (by omega) (by omega) (.bind (.intIn 1 (by omega) (by omega) (.bind (.bind (.bind (.pure rfl) (reach_singlePartExt h4 hw))
        (reach_istring h3)) (reach_istring h2))) (reach_basicFields h1))
    | text f s n x =>
      obtain ⟨h1, h2, h3, h4⟩ := h
      exact .intIn 1 (by omega) (by omega) (.bind (.intIn 3 (by omega) (by omega) (.bind (.bind (.bind (.pure rfl) (reach_singlePartExt h4 hw))
        (reach_u32 h3)) (reach_istring h2))) (reach_basicFields h1))
    | message f e b n x =>
      obtain ⟨h1, h2, h3, -, h4, h5⟩ := h
      obtain ⟨-, hb, hx⟩ := hw
      exact .intIn 1 (by omega) (by omega) (.bind (.intIn 2 (by omega) (by omega) (.bind (.bind (.bind (.bind (.pure rfl)
        (reach_singlePartExt h5 hx)) (reach_u32 h4)) (reach_bodyStructureLimited d h3 hb)) (reach_envelope h2))) (reach_basicFields h1))
    | multi l s x =>
      obtain ⟨h1, h2, h3, h4⟩ := h
      obtain ⟨-, hb, hx⟩ := hw
      have h2 := body_go_iff.1 h2
      have hb := BodyWithin.go_iff.1 hb
      exact .intIn 2 (by omega) (by omega) (.bind (.bind (.bind (.bind (.pure rfl) (reach_multiPartExt h4 hx)) (reach_istring h3))
        (.nonEmptyOr h1)) (.vec fun k hk => reach_bodyStructureLimited d (h2 k hk) (hb k hk)))

theorem reach_bodyStructure {b : BodyStructure} (h : BodyStructure.Inv .rt b) (hw : BodyWithin 3 b) : Reaches (fun e => @bodyStructure q e) b :=
  .full (reach_bodyStructureLimited 3 h hw)

/-! ### Responses -/

omit q in
theorem reach_uidElement {u : UidElement} (h : UidElement.Inv u) : Reaches (fun _ => uidElement) u := by
  cases u with
  | single n => exact .head (.bind (.pure rfl) (reach_nz32 h))
  | range a b => exact .tail (.head (.bind (.bind (.pure rfl) (reach_nz32 h.2)) (reach_nz32 h.1)))

omit q in
theorem reach_metadataCode {u : MetadataCode} (h : MetadataCode.Inv u) : Reaches (fun _ => metadataCode) u := by
  cases u with
  | longEntries n => exact .head (.bind (.pure rfl) (reach_u32 h))
  | maxSize n => exact .tail (.head (.bind (.pure rfl) (reach_u32 h)))
  | tooMany => exact .tail (.tail (.head (.pure rfl)))
  | noPrivate => exact .tail (.tail (.tail (.head (.pure rfl))))

macro_rules | `(tactic| reach_leaf) => `(tactic| first
  | exact reach_metadataCode (by assumption) | exact .ofVec1 (fun _ => reach_uidElement) (by assumption)
  | exact .ofVec (fun _ => reach_charset) (by assumption) | exact .ofVec1 (fun _ => reach_capability) (by assumption)
  | exact .ofVec (fun _ => reach_flagPerm) (by assumption))

theorem reach_code {t : Bytes} {c : Code} (h : Code.Inv .rt t c) (ht : ∀ s, c = .other s → s = b!"IMAP-CODEC-CODE-OTHER>") :
    Reaches (fun e => @code e q) c := by
  cases c with
  | alert => reach_one 0
  | badCharset l => have h : All Charset.Inv l := h; reach_one 1
  | capability l => have h : All1 (Capability.Inv .rt) l := h; reach_one 2
  | parse => reach_one 3
  | permanentFlags l => have h : All FlagPerm.Inv l := h; reach_one 4
  | readOnly => reach_one 5
  | readWrite => reach_one 6
  | tryCreate => reach_one 7
  | uidNext n => have h : NZ32 n := h; reach_one 8
  | uidValidity n => have h : NZ32 n := h; reach_one 9
  | unseen n => have h : NZ32 n := h; reach_one 10
  | referral u => exact absurd rfl h.2.1
  | compressionActive => reach_one 12
  | overQuota => reach_one 13
  | tooBig => reach_one 14
  | metadata m => obtain ⟨h1, h2⟩ := h; have h1 : q.extMetadata = true := h1; reach_one 15
  | unknownCte => reach_one 16
  | appendUid a b => obtain ⟨h1, h2⟩ := h; reach_one 17
  | copyUid a b c => obtain ⟨h1, h2, h3⟩ := h; reach_one 18
  | uidNotSticky => reach_one 19
  | highestModSeq n => obtain ⟨h1, h2⟩ := h; have h1 : q.extCondstoreQresync = true := h1; reach_one 20
  | modified n => obtain ⟨h1, h2⟩ := h; have h1 : q.extCondstoreQresync = true := h1; reach_one 21
  | noModSeq => have h : q.extCondstoreQresync = true := h; reach_one 22
  | closed => have h : q.extCondstoreQresync = true := h; reach_one 23
  | other s =>
    obtain rfl := ht s rfl
    reach_one 24

theorem reach_optCode {t : Bytes} {c : Option Code} (h : Opt (Code.Inv .rt t) c) (ht : TypicalCode c) : Reaches (fun e => opt (@code e q)) c :=
  .opt fun c hc => reach_code (h c hc) fun s hs => ht s (by cases hc; rw [hs])

omit q in
theorem reach_textNoBracket {t : Bytes} (h : Str1 TextChar t) (hb : t.head? ≠ some 91) : Reaches (fun e => @textNoBracket e) t := by
  refine .bind ?_ (reach_text h)
  simp only [hb, if_false]
  exact .pure rfl

theorem reach_greeting {g : Greeting} (h : Greeting.Inv .rt g) (ht : TypicalCode g.code) (hb : g.text.head? ≠ some 91) :
    Reaches (fun e => @greeting e q) g := by
  rcases g with ⟨k, c, t⟩
  obtain ⟨h1, h2, h3⟩ := h
  refine .bind (.bind (.bind (.pure rfl) (reach_textNoBracket h1 hb)) (reach_optCode h2 ht)) ?_
  cases k with
  | ok => exact .head (.pure rfl)
  | preAuth => exact .tail (.head (.pure rfl))
  | bye => exact .tail (.tail (.head (.pure rfl)))

theorem reach_status {s : Status} (h : Status.Inv .rt s) (ht : TypicalCode s.code) : Reaches (fun e => @status e q) s := by
  have key : ∀ {c t} {f : Entropy → Option Code → Bytes → Gen Status}, RespText.Inv .rt c t → TypicalCode c → Reaches (fun e => f e c t) s →
      Reaches (fun e => do
        let code ← opt (@code e q)
        let text ← (if code.isSome then @text e else @textNoBracket e : Gen Bytes)
        f e code text) s := by
    intro c t f h ht hf
    refine .bind (.bind hf ?_) (reach_optCode h.2.1 ht)
    cases c with
    | none => exact reach_textNoBracket h.1 (h.2.2 rfl rfl)
    | some c => exact reach_text h.1
  have tagged : ∀ {tg : Bytes} {k : StatusKind} {c : Option Code} {t : Bytes}, Tag.Inv tg → Reaches (fun e => do
      match ← opt (@tag e) with
      | some tag => return Status.tagged tag k c t
      | none => return .untagged k c t) (.tagged tg k c t) :=
    fun {tg} {k} {c} {t} htg => .bind (a := some tg) (.pure rfl) (.opt fun x hx => by cases hx; exact reach_tag htg)
  have untagged : ∀ {k : StatusKind} {c : Option Code} {t : Bytes}, Reaches (fun e => do
      match ← opt (@tag e) with
      | some tag => return Status.tagged tag k c t
      | none => return .untagged k c t) (.untagged k c t) :=
    fun {k} {c} {t} => .bind (a := none) (.pure rfl) (.opt fun x hx => by cases hx)
  cases s with
  | tagged tg k c t =>
    refine key h.2 ht ?_
    cases k with
    | ok => exact .intIn 0 (by omega) (by omega) (tagged h.1)
    | no => exact .intIn 1 (by omega) (by omega) (tagged h.1)
    | bad => exact .intIn 2 (by omega) (by omega) (tagged h.1)
  | untagged k c t =>
    refine key h ht ?_
    cases k with
    | ok => exact .intIn 0 (by omega) (by omega) untagged
    | no => exact .intIn 1 (by omega) (by omega) untagged
    | bad => exact .intIn 2 (by omega) (by omega) untagged
  | bye c t => exact key h ht (.intIn 3 (by omega) (by omega) (.pure rfl))

theorem reach_continueReq {r : ContinueReq} (h : ContinueReq.Inv .rt r) (ht : ∀ c t, r = .basic c t → TypicalCode c) :
    Reaches (fun e => @continueReq e q) r := by
  cases r with
  | base64 s => exact .tail (.head (.bind (.pure rfl) .bytes))
  | basic c t =>
    obtain ⟨h, hc⟩ := h
    refine .head (.bind (.bind (.of ?_) (reach_text h.1)) (reach_optCode h.2.1 (ht c t rfl)))
    have : ContinueReq.ofBasic c t = some (.basic c t) := by
      unfold ContinueReq.ofBasic
      cases c with
      | some c => rfl
      | none =>
        obtain ⟨h1, h2⟩ := hc rfl
        simp [h1, h2]
    simp only [ContinueReq.mkBasic, Made.mapErr, Made.bind_ok, this]

theorem reach_statusDataItem {s : StatusDataItem} (h : StatusDataItem.Inv s) : Reaches (fun _ => statusDataItem) s := by
  cases s with
  | messages n => have h : n < 2 ^ 32 := h; reach_one 0
  | recent n => have h : n < 2 ^ 32 := h; reach_one 1
  | uidNext n => have h : NZ32 n := h; reach_one 2
  | uidValidity n => have h : NZ32 n := h; reach_one 3
  | unseen n => have h : n < 2 ^ 32 := h; reach_one 4
  | deleted n => have h : n < 2 ^ 32 := h; reach_one 5
  | deletedStorage n => have h : n < 2 ^ 64 := h; reach_one 6
  | highestModSeq n => obtain ⟨h1, h2⟩ := h; have h1 : q.extCondstoreQresync = true := h1; reach_one 7

macro_rules | `(tactic| reach_leaf) => `(tactic| first
  | exact reach_envelope (by assumption) | exact reach_bodyStructure (by assumption) (by assumption)
  | exact .ofVec (fun _ => reach_flagFetch) (by assumption) | exact .ofVec (fun _ => reach_statusDataItem) (by assumption)
  | exact .ofOpt (fun _ => reach_u32) (by assumption)
  | exact .ofVec (fun _ => reach_flagNameAttribute) (by assumption) | exact .ofOpt (fun _ => reach_quotedChar) (by assumption)
  | exact .ofVec (fun _ => reach_capabilityEnable) (by assumption) | exact .ofVec (fun _ => reach_astring) (by assumption))

theorem reach_messageDataItem {s : MessageDataItem} (h : MessageDataItem.Inv .rt s) (ht : TypicalItem s) : Reaches (fun e => @messageDataItem e q) s := by
  cases s with
  | body b => obtain ⟨h, -⟩ := h; have ht : BodyWithin 3 b := ht; reach_one 0
  | bodyExt s o d => obtain ⟨h1, h2, h3⟩ := h; reach_one 1
  | bodyStructure b => obtain ⟨h, -⟩ := h; have ht : BodyWithin 3 b := ht; reach_one 2
  | envelope s => have h : Envelope.Inv .rt s := h; reach_one 3
  | flags l => have h : All (FlagFetch.Inv .rt) l := h; reach_one 4
  | internalDate t => have h : DateTime.Inv t ∧ NotWest t := ⟨h, ht⟩; reach_one 5
  | rfc822 s => have h : NString.Inv .rt s := h; reach_one 6
  | rfc822Header s => have h : NString.Inv .rt s := h; reach_one 7
  | rfc822Size n => have h : n < 2 ^ 32 := h; reach_one 8
  | rfc822Text s => have h : NString.Inv .rt s := h; reach_one 9
  | uid n => have h : NZ32 n := h; reach_one 10
  | binary s v => obtain ⟨h1, h2⟩ := h; reach_one 11
  | binarySize s n => obtain ⟨h1, h2⟩ := h; reach_one 12
  | modSeq n => exact absurd rfl h.2.2

omit q in
theorem thread_go_iff : ∀ {l : List Thread}, Thread.Inv.go l ↔ ∀ k ∈ l, Thread.Inv k
  | [] => by simp [Thread.Inv.go]
  | k :: l => by simp [Thread.Inv.go, thread_go_iff (l := l)]

omit q in
theorem ok_unwrap {ε α : Type} {m : Made ε α} {a : α} : unwrap m (.ok a) ↔ m = .ok a := by
  cases m with
  | ok b => exact ok_pure.trans ⟨fun h => by rw [h], fun h => by cases h; rfl⟩
  | err e => exact ⟨fun h => (by cases h), fun h => by cases h⟩
  | panicked => exact ⟨fun h => (by cases h), fun h => by cases h⟩

omit q in
/-- One more iteration is not a restriction. -/
theorem threadLoop_more : ∀ (d : Nat) {t u : Thread}, threadLoop d t (.ok u) → threadLoop (d + 1) t (.ok u)
  | 0, t, u, h => ok_bind.2 ⟨2, ok_any.2 (by omega), h⟩
  | d + 1, t, u, h => by
    obtain ⟨n, hn, h⟩ := ok_bind.1 h
    have hn' := (ok_any (p := fun n => 0 ≤ n ∧ n ≤ 2)).1 hn
    refine ok_bind.2 ⟨n, hn, ?_⟩
    have : n = 0 ∨ n = 1 ∨ n = 2 := by omega
    rcases this with rfl | rfl | rfl
    · obtain ⟨p, hp, h⟩ := ok_bind.1 h
      obtain ⟨v, hv, h⟩ := ok_bind.1 h
      exact ok_bind.2 ⟨p, hp, ok_bind.2 ⟨v, hv, threadLoop_more d h⟩⟩
    · obtain ⟨v, hv, h⟩ := ok_bind.1 h
      exact ok_bind.2 ⟨v, hv, threadLoop_more d h⟩
    · exact h

omit q in
theorem ok_prefix {p : List NzU32} (h : All1 NZ32 p) : vec1 nz32 (.ok p) := ok_vec1 h.1 fun n hn => ok_any.2 (h.2 n hn)

omit q in
/-- The loop reaches the thread `u` from a leaf if it reaches `u` from `t` with `n` iterations less. -/
theorem ok_threadLoop : ∀ (n : Nat) {t u : Thread} {d : Nat}, Thread.Inv t → Twins n t → threadLoop d t (.ok u) →
    (do threadLoop (d + n) (← threadLeaf)) (.ok u)
  | n, .members p [], u, d, h, _, hu => by
    refine ok_bind.2 ⟨.members p [], ok_bind.2 ⟨p, ok_prefix h.1, ok_pure.2 rfl⟩, ?_⟩
    induction n with
    | zero => exact hu
    | succ n ih => exact threadLoop_more _ (ih (by simp [Twins]))
  | n + 1, .members p [a, b], u, d, h, ht, hu => by
    obtain ⟨rfl, ht⟩ := ht
    rw [show d + (n + 1) = (d + 1) + n by omega]
    refine ok_threadLoop n (thread_go_iff.1 h.2.2 a (by simp)) ht ?_
    exact ok_bind.2 ⟨0, ok_any.2 (by omega), ok_bind.2 ⟨p, ok_prefix h.1, ok_bind.2 ⟨[a, a], ok_unwrap.2 (vecN_of (by simp)), hu⟩⟩⟩
  | n + 1, .nested [a, b], u, d, h, ht, hu => by
    obtain ⟨rfl, ht⟩ := ht
    rw [show d + (n + 1) = (d + 1) + n by omega]
    refine ok_threadLoop n (thread_go_iff.1 h.2 a (by simp)) ht ?_
    exact ok_bind.2 ⟨1, ok_any.2 (by omega), ok_bind.2 ⟨[a, a], ok_unwrap.2 (vecN_of (by simp)), hu⟩⟩
  | 0, .members p (_ :: _), _, _, _, ht, _ => by simp [Twins] at ht
  | 0, .nested _, _, _, _, ht, _ => by simp [Twins] at ht
  | _ + 1, .members _ [_], _, _, _, ht, _ => by simp [Twins] at ht
  | _ + 1, .members _ (_ :: _ :: _ :: _), _, _, _, ht, _ => by simp [Twins] at ht
  | _ + 1, .nested [], _, _, _, ht, _ => by simp [Twins] at ht
  | _ + 1, .nested [_], _, _, _, ht, _ => by simp [Twins] at ht
  | _ + 1, .nested (_ :: _ :: _ :: _), _, _, _, ht, _ => by simp [Twins] at ht

omit q in
theorem reach_thread {t : Thread} (h : Thread.Inv t) (ht : Twins 7 t) : Reaches (fun e => @thread e) t := by
  refine .full (.const ?_)
  exact ok_threadLoop (d := 0) 7 h ht (ok_pure.2 rfl)

theorem reach_namespace {n : Namespace} (h : Namespace.Inv .rt n) : Reaches (fun e => @namespace_ e q) n := by
  rcases n with ⟨p, d, l⟩
  obtain ⟨h1, h2, h3⟩ := h
  refine .bind (.bind (.bind (.pure rfl) (.ofVec (fun x hx => ?_) h3)) (.ofOpt (fun _ => reach_quotedChar) h2)) (reach_istring h1)
  rcases x with ⟨k, v⟩
  exact .bind (.bind (.pure rfl) (.ofVec1 (fun _ => reach_istring) hx.2)) (reach_istring hx.1)

omit q in
theorem reach_quotaGet {x : QuotaGet} (h : QuotaGet.Inv x) : Reaches (fun e => @quotaGet e) x := by
  obtain ⟨h1, h2, h3⟩ := h
  exact .bind (.bind (.bind (.pure rfl) (reach_u64 h3)) (reach_u64 h2)) (reach_resource h1)

theorem reach_metadataResponse {r : MetadataResponse} (h : MetadataResponse.Inv .rt r) : Reaches (fun e => @metadataResponse e q) r := by
  cases r with
  | withValues l => exact .head (.bind (.pure rfl) (.ofVec1 (fun _ => reach_entryValue) h))
  | withoutValues l => exact .tail (.head (.bind (.pure rfl) (.ofVec1 (fun _ => reach_astring) h)))

theorem reach_modSeqField {m : Option Nat} (h : Opt (fun n => q.extCondstoreQresync ∧ NZ64 n) m) :
    Reaches (fun _ => field q.extCondstoreQresync none (opt nz64)) m := by
  refine .field (fun hb => ?_) (.opt fun n hn => reach_nz64 (h n hn).2)
  cases m with
  | none => rfl
  | some n =>
    have : q.extCondstoreQresync = true := (h n rfl).1
    rw [hb] at this
    cases this

macro_rules | `(tactic| reach_leaf) => `(tactic| first
  | exact reach_modSeqField (by assumption) | exact reach_metadataResponse (by assumption)
  | exact .ofVec1 (fun _ => reach_quotaGet) (by assumption) | exact .ofVec (fun _ => reach_namespace) (by assumption))

theorem reach_data {d : Data} (h : Data.Inv .rt d) (ht : TypicalData d) : Reaches (fun e => @data e q) d := by
  cases d with
  | capability l => have h : All1 (Capability.Inv .rt) l := h; reach_one 0
  | list l d m => obtain ⟨h1, h2, h3⟩ := h; have ht : SimplestForm m := ht; reach_one 1
  | lsub l d m => obtain ⟨h1, h2, h3⟩ := h; have ht : SimplestForm m := ht; reach_one 2
  | status m l => obtain ⟨h1, h2⟩ := h; have ht : SimplestForm m := ht; reach_one 3
  | search l m => obtain ⟨h1, h2⟩ := h; reach_one 4
  | sort l m => obtain ⟨h1, h2⟩ := h; reach_one 5
  | thread l =>
    reach_one 6
    exact .vec fun t h' => reach_thread (h t h').1 (ht t h')
  | flags l => have h : All Flag.Inv l := h; reach_one 7
  | exists_ n => have h : n < 2 ^ 32 := h; reach_one 8
  | recent n => have h : n < 2 ^ 32 := h; reach_one 9
  | expunge n => have h : NZ32 n := h; reach_one 10
  | fetch n l =>
    obtain ⟨h1, h2, h3⟩ := h
    reach_one 11
    exact .vec1 h2 fun i hi => reach_messageDataItem (h3 i hi) (ht i hi)
  | enabled l => have h : All CapabilityEnable.Inv l := h; reach_one 12
  | quota r l => obtain ⟨h1, h2⟩ := h; reach_one 13
  | quotaRoot m l => obtain ⟨h1, h2⟩ := h; have ht : SimplestForm m := ht; reach_one 14
  | id_ p => obtain ⟨h1, h2⟩ := h; have h1 : q.extId = true := h1; reach_one 15
  | metadata m r => obtain ⟨h1, h2, h3⟩ := h; have h1 : q.extMetadata = true := h1; have ht : SimplestForm m := ht; reach_one 16
  | vanished e s => obtain ⟨h1, h2⟩ := h; have h1 : q.extCondstoreQresync = true := h1; reach_one 17
  | namespace_ a b c => obtain ⟨h1, h2, h3, h4⟩ := h; have h1 : q.extNamespace = true := h1; reach_one 18

theorem reach_message (k : Codec) {m : k.Message} (h : Supported k m) (ht : Typical k m) : Reaches (fun e => @message e q k) m := by
  cases k with
  | greeting => exact reach_greeting h ht.1 ht.2
  | command => exact reach_command h ht
  | authenticateData =>
    cases m with
    | continue_ s => exact .head (.bind (.pure rfl) .bytes)
    | cancel => exact .tail (.head (.pure rfl))
  | response =>
    cases m with
    | continue_ r =>
      refine .head (.bind (.pure rfl) (reach_continueReq h ?_))
      rintro c t rfl
      exact ht
    | data d => exact .tail (.head (.bind (.pure rfl) (reach_data h ht)))
    | status s => exact .tail (.tail (.head (.bind (.pure rfl) (reach_status h ht))))
  | idleDone => exact .const (ok_pure.2 rfl)

end Imap.Arb
