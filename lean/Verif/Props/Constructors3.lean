import Verif.Props.Constructors2

/-!
# C37, continued: response codes
-/
set_option maxRecDepth 10000
namespace Imap

open Spec

/-- `Code::badcharset` (imap-types/src/response.rs:980-982). -/
def Code.mkBadCharset (allowed : List Charset) : Code := .badCharset allowed

/-- `Code::capability` (imap-types/src/response.rs:984-989). -/
def Code.mkCapability {ε : Type} (caps : Made ε (List Capability)) : Made ε Code := do return .capability (← caps)

/-- `Code::permanentflags` (imap-types/src/response.rs:991-993). -/
def Code.mkPermanentFlags (flags : List FlagPerm) : Code := .permanentFlags flags

/-- `Code::uidnext` (imap-types/src/response.rs:995-997). -/
def Code.mkUidNext (uidnext : Nat) : Made Unit Code := do return .uidNext (← nonZeroU32 uidnext)

/-- `Code::uidvalidity` (imap-types/src/response.rs:999-1001). -/
def Code.mkUidValidity (uidnext : Nat) : Made Unit Code := do return .uidValidity (← nonZeroU32 uidnext)

/-- `Code::unseen` (imap-types/src/response.rs:1003-1005). -/
def Code.mkUnseen (uidnext : Nat) : Made Unit Code := do return .unseen (← nonZeroU32 uidnext)

/-- `From<Flag> for FlagPerm` (imap-types/src/flag.rs:129-133). -/
def FlagPerm.ofFlag (f : Flag) : FlagPerm := .flag f

variable [Quirks]

/-- What the client gets when the server sends a code: in a greeting, in a status response with or without tag, in a BYE and in a command
continuation request, whatever the text is. In a response with the code the text may start with `[`. -/
def ArrivesCode (sent got : Code) : Prop :=
  ∀ text rest : Bytes, Str1 TextChar text →
    (∀ kind, ∃ g, Greeting.mk' kind (some sent) text = .ok g ∧
      Codec.greeting.decode (dump (Codec.greeting.encode g) ++ rest) = .ok rest ⟨kind, some got, text⟩) ∧
    (∀ kind, ∃ s, Status.mk' none kind (some sent) (Text.tryFrom text) = .ok s ∧
      Codec.response.decode (dump (Codec.response.encode (.status s)) ++ rest) = .ok rest (.status (.untagged kind (some got) text))) ∧
    (∀ kind tag, Str1 TagChar tag → ∃ s, Status.mk' (some tag) kind (some sent) (Text.tryFrom text) = .ok s ∧
      Codec.response.decode (dump (Codec.response.encode (.status s)) ++ rest) = .ok rest (.status (.tagged tag kind (some got) text))) ∧
    (∃ s, Status.mkBye (some sent) (Text.tryFrom text) = .ok s ∧
      Codec.response.decode (dump (Codec.response.encode (.status s)) ++ rest) = .ok rest (.status (.bye (some got) text))) ∧
    (∃ r, ContinueReq.mkBasic (some sent) (Text.tryFrom text) = .ok r ∧
      Codec.response.decode (dump (Codec.response.encode (.continue_ r)) ++ rest) = .ok rest (.continue_ (.basic (some got) text)))

theorem arrivesCode {c : Code} (h : ∀ text, Code.Inv .rt text c) (hn : c.norm = c) : ArrivesCode c c := by
  intro text rest ht
  have hr : RespText.Inv .rt (some c) text := ⟨ht, fun _ e => Option.some.inj e ▸ h text, fun _ e => nomatch e⟩
  have e := (C25_text.2 text).1 ht
  refine ⟨fun kind => ⟨⟨kind, some c, text⟩, ?_, ?_⟩, fun kind => ⟨.untagged kind (some c) text, ?_, ?_⟩,
    fun kind tag htag => ⟨.tagged tag kind (some c) text, ?_, ?_⟩, ⟨.bye (some c) text, ?_, ?_⟩, ⟨.basic (some c) text, ?_, ?_⟩⟩
  · rw [Greeting.mk', e]; rfl
  · have := round_trip .greeting ⟨kind, some c, text⟩ hr rest
    simpa [Codec.norm, Greeting.norm, hn] using this
  · rw [e]; rfl
  · have := round_trip .response (.status (.untagged kind (some c) text)) hr rest
    simpa [Codec.norm, Response.norm, Status.norm, hn] using this
  · rw [e]; rfl
  · have := round_trip .response (.status (.tagged tag kind (some c) text)) ⟨htag, hr⟩ rest
    simpa [Codec.norm, Response.norm, Status.norm, hn] using this
  · rw [e]; rfl
  · have := round_trip .response (.status (.bye (some c) text)) hr rest
    simpa [Codec.norm, Response.norm, Status.norm, hn] using this
  · rw [e]; rfl
  · have := round_trip .response (.continue_ (.basic (some c) text)) ⟨hr, fun h => nomatch h⟩ rest
    simpa [Codec.norm, Response.norm, ContinueReq.norm, hn] using this

/-- C37 for the codes with a number: zero is rejected, and all others arrive under the right name. -/
theorem C37_code_numbers (n : Nat) (hn : n < 2 ^ 32) :
    (n = 0 → Code.mkUidNext n = .err () ∧ Code.mkUidValidity n = .err () ∧ Code.mkUnseen n = .err ()) ∧
    (n ≠ 0 → (∃ c, Code.mkUidNext n = .ok c ∧ ArrivesCode c (.uidNext n)) ∧
      (∃ c, Code.mkUidValidity n = .ok c ∧ ArrivesCode c (.uidValidity n)) ∧
      (∃ c, Code.mkUnseen n = .ok c ∧ ArrivesCode c (.unseen n))) := by
  refine ⟨by rintro rfl; exact ⟨rfl, rfl, rfl⟩, fun h => ?_⟩
  have e : nonZeroU32 n = .ok n := by simp only [nonZeroU32, if_neg h]
  have hz : NZ32 n := ⟨by omega, hn⟩
  refine ⟨⟨.uidNext n, ?_, arrivesCode (fun _ => hz) rfl⟩, ⟨.uidValidity n, ?_, arrivesCode (fun _ => hz) rfl⟩,
    ⟨.unseen n, ?_, arrivesCode (fun _ => hz) rfl⟩⟩
  · rw [Code.mkUidNext, e]; rfl
  · rw [Code.mkUidValidity, e]; rfl
  · rw [Code.mkUnseen, e]; rfl

/-- C37 for the codes with a list: the empty list of capabilities is rejected; all other lists arrive, also the empty ones of charsets and
flags, with their items in the same order. -/
theorem C37_code_lists (charsets : List Charset) (hc : All Charset.Inv charsets) (flags : List FlagPerm) (hf : All FlagPerm.Inv flags)
    (caps : List Capability) (hcaps : All (Capability.Inv .rt) caps) :
    ArrivesCode (Code.mkBadCharset charsets) (.badCharset charsets) ∧
    ArrivesCode (Code.mkPermanentFlags flags) (.permanentFlags flags) ∧
    (caps = [] → Code.mkCapability (VecN.tryFrom 1 caps) = .err (.notEnough 1)) ∧
    (caps ≠ [] → ∃ c, Code.mkCapability (VecN.tryFrom 1 caps) = .ok c ∧ ArrivesCode c (.capability caps)) := by
  refine ⟨arrivesCode (fun _ => hc) rfl, arrivesCode (fun _ => hf) rfl, by rintro rfl; rfl, fun h => ⟨.capability caps, ?_,
    arrivesCode (fun _ => ⟨h, hcaps⟩) rfl⟩⟩
  have : ¬ caps.length < 1 := by have := List.length_pos_iff.2 h; omega
  simp only [VecN.tryFrom, if_neg this]; rfl

omit [Quirks] in
theorem flag_tryFrom_inv {v : Bytes} {f : Flag} (h : Flag.tryFrom v = .ok f) : Flag.Inv f := by
  have atom : ∀ {a x : Bytes}, Atom.tryFrom a = .ok x → IsAtom x := by
    intro a x hx
    by_cases ha : Str1 AtomChar a
    · rw [(C25_atom.2 a).1 ha] at hx
      cases hx
      exact ha
    · by_cases he : a = []
      · rw [he, C25_atom.1] at hx; cases hx
      · rcases all_or_firstBad AtomChar a with hc | ⟨b, i, hb⟩
        · exact absurd ⟨he, hc⟩ ha
        · rw [(C25_atom.2 a).2 b i hb] at hx; cases hx
  unfold Flag.tryFrom at h
  split at h
  · rename_i a
    rcases ha : Atom.tryFrom a with x | e | e
    all_goals rw [ha] at h
    · cases h
      have hx := atom ha
      simp only [Flag.system]
      repeat' split
      all_goals first
        | trivial
        | exact ⟨hx, by simp_all [NotOneOf]⟩
    all_goals cases h
  · rcases ha : Atom.tryFrom v with x | e | e
    all_goals rw [ha] at h
    · cases h
      exact atom ha
    all_goals cases h

/-- C37: every text that is a flag can be sent in PERMANENTFLAGS, and arrives as this flag. -/
theorem C37_permanent_flag (v : Bytes) (f : Flag) (h : Flag.tryFrom v = .ok f) :
    ArrivesCode (Code.mkPermanentFlags [FlagPerm.ofFlag f, .asterisk]) (.permanentFlags [.flag f, .asterisk]) :=
  arrivesCode (fun _ => by
    intro x hx
    simp only [List.mem_cons, List.not_mem_nil, or_false] at hx
    rcases hx with rfl | rfl
    · exact flag_tryFrom_inv h
    · trivial) rfl

end Imap

/-! ## Examples -/

namespace Imap.Constructors3Examples

open Imap Imap.Spec

attribute [local instance] Quirks.default

/-- A greeting with a code and a text that starts with `[`. -/
example : ∃ g, Greeting.mk' .ok (some (.uidNext 7)) b!"[x" = .ok g ∧
    Codec.greeting.decode (dump (Codec.greeting.encode g) ++ b!"rest") = .ok b!"rest" ⟨.ok, some (.uidNext 7), b!"[x"⟩ := by
  obtain ⟨c, hc, ha⟩ := ((C37_code_numbers 7 (by decide)).2 (by decide)).1
  cases hc
  exact (ha b!"[x" b!"rest" (by decide)).1 .ok

/-- The hypotheses of `C37_code_lists` are met. -/
example : All Charset.Inv [.atom b!"UTF-8", .quoted b!"a b"] ∧ All FlagPerm.Inv [.flag .seen, .asterisk] ∧
    All (Capability.Inv .rt) [.imap4Rev1, .auth .plain] := by
  refine ⟨?_, ?_, ?_⟩ <;> intro c hc <;> simp only [List.mem_cons, List.not_mem_nil, or_false] at hc <;> rcases hc with rfl | rfl
  · exact (by decide : IsAtom b!"UTF-8")
  · exact (by decide : ∀ b ∈ b!"a b", TextChar b)
  all_goals trivial

/-- An extension flag and a keyword. -/
example : Flag.tryFrom b!"\\Junk" = .ok (.extension b!"Junk") ∧ Flag.tryFrom b!"$Forwarded" = .ok (.keyword b!"$Forwarded") ∧
    Flag.tryFrom b!"\\SEEN" = .ok .seen := by decide

end Imap.Constructors3Examples
