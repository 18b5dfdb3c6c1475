import Verif.ArbitraryReach
import Verif.Props.Fuzz
set_option maxRecDepth 10000
/-
Property C58: the messages of the generators (feature `arbitrary`), and what the structured fuzz targets can find. The generators are in
Verif/Arbitrary.lean; a generator is the set of its possible results.
-/
namespace Imap.Arb
open Imap.Spec Imap.Fuzz

section
variable [e : Entropy] [q : Quirks]

/-- The level of the invariants alone. -/
@[reducible] def lvlInv : Lvl := ⟨.inv, by decide, fun h => by cases h⟩

/-- The level of the round trip. -/
@[reducible] def lvlRt (h : e.size < 2 ^ 32) : Lvl := ⟨.rt, by decide, fun _ => h⟩

/-- C58: the generators never panic, whatever the random bytes. -/
theorem C58_no_panic (k : Codec) : ¬ message k .panicked :=
  letI := lvlInv
  (message_sat k).1

/-- C58: all generated messages satisfy the invariants of their types. -/
theorem C58_valid (k : Codec) (m : k.Message) (h : message k (.ok m)) : WellFormed k m :=
  letI := lvlInv
  (message_sat k).2 m h (by intro h; cases h)

omit e in
theorem recoverable_of_supported (k : Codec) (m : k.Message) (h : Supported k m) : Recoverable k m := by
  have code : ∀ {c : Option Code} {t : Bytes}, RespText.Inv .rt c t → NoReferral c := by
    rintro c t h url rfl
    exact (h.2.1 _ rfl).2.1 rfl
  unfold Recoverable
  split
  · exact code (show RespText.Inv .rt _ _ from h)
  · rename_i s
    cases s with
    | tagged tag k c t => exact code (show _ ∧ _ from h).2
    | untagged k c t => exact code (show RespText.Inv .rt _ _ from h)
    | bye c t => exact code (show RespText.Inv .rt _ _ from h)
  · exact code (show _ ∧ _ from h).1
  · intro i hi
    have := (show _ ∧ _ from h).2.2 i hi
    cases i with
    | modSeq n => exact this.2.2 rfl
    | flags l =>
      intro s hs e
      exact (this _ hs).2 rfl s rfl (List.mem_singleton.2 e)
    | _ => trivial
  · trivial

/-- C58: the round trip supports a generated message if and only if it has neither a referral code, nor the item MODSEQ, nor an extension
flag that is spelled `\Recent`. No other exclusion (of those in Verif/WellFormed.lean) applies to generated messages. -/
theorem C58_supported (hs : e.size < 2 ^ 32) (k : Codec) (m : k.Message) (h : message k (.ok m)) :
    Supported k m ↔ Recoverable k m :=
  letI := lvlRt hs
  ⟨recoverable_of_supported k m, fun hr => (message_sat k).2 m h fun _ => hr⟩

/-- C58: for which of their messages the targets *_to_bytes_and_back panic: exactly for those with one of these three parts and those
that the encoder normalizes to another message. -/
theorem C58_back_target (hs : e.size < 2 ^ 32) (k : Codec) (m : k.Message) (h : message k (.ok m)) :
    BackPanics k m ↔ ¬ Recoverable k m ∨ k.norm m ≠ m := by
  rw [← not_iff_not, C55_back_target, C58_supported hs k m h, not_or, not_not, not_not]

/-- C58: the target authenticate_data_to_bytes_and_back never panics. -/
theorem C58_authenticate_data (hs : e.size < 2 ^ 32) (m : AuthenticateData) (h : message .authenticateData (.ok m)) :
    ¬ BackPanics .authenticateData m := by
  rw [C58_back_target hs _ _ h]
  rintro (h | h)
  · exact h trivial
  · exact h rfl

/-- C58: the target command_to_bytes_and_back panics exactly for the commands that the encoder normalizes to another one; never without
the two normalizing quirks. -/
theorem C58_command (hs : e.size < 2 ^ 32) (m : Command) (h : message .command (.ok m)) :
    (BackPanics .command m ↔ m.norm ≠ m) ∧
    (Quirks.alwaysNormalizeSequenceSets = false → Quirks.idEmptyToNil = false → ¬ BackPanics .command m) := by
  rw [C58_back_target hs .command m h]
  refine ⟨⟨fun h => h.resolve_left fun h => h trivial, .inr⟩, fun hq hi => ?_⟩
  rintro (h | h)
  · exact h trivial
  · exact h (Codec.norm_off hq hi .command m)

/-- C58: the target greeting_to_bytes_and_back never panics in builds without the extensions for referrals and CONDSTORE. This includes
the set of extensions that the fuzz crate calls `ext` (imap-codec/fuzz/Cargo.toml:34-45). -/
theorem C58_greeting (hs : e.size < 2 ^ 32) (hl : q.extLoginReferrals = false) (hm : q.extMailboxReferrals = false)
    (hc : q.extCondstoreQresync = false) (m : Greeting) (h : message .greeting (.ok m)) : ¬ BackPanics .greeting m := by
  rw [C58_back_target hs .greeting m h]
  have hv : RespText.Inv .inv m.code m.text := C58_valid .greeting m h
  rintro (h | h)
  · refine h fun url e => ?_
    have := (hv.2.1 _ e).1
    simp [hl, hm] at this
  · refine h ?_
    show Greeting.norm m = m
    rcases m with ⟨k, c, t⟩
    simp only [Greeting.norm, Greeting.mk.injEq, true_and, and_true]
    cases c with
    | none => rfl
    | some c =>
      cases c with
      | modified s =>
        have := (hv.2.1 _ rfl).1
        simp [hc] at this
      | _ => rfl

omit e q

/-- C58: all sequence sets can be generated. -/
theorem C58_sequenceSet (s : SequenceSet) : sequenceSet (.ok s) ↔ SequenceSet.Inv s := by
  refine ⟨(Has.sat (g := sequenceSet)).2 s, fun h => ok_vec1 h.1 fun x hx => ?_⟩
  have key : ∀ y : SeqOrUid, SeqOrUid.Inv y → seqOrUid (.ok y) := by
    intro y hy
    cases y with
    | value n => exact ok_oneOf.2 ⟨_, .head _, ok_bind.2 ⟨n, ok_any.2 hy, ok_pure.2 rfl⟩⟩
    | asterisk => exact ok_oneOf.2 ⟨_, .tail _ (.head _), ok_pure.2 rfl⟩
  have hx := h.2 x hx
  cases x with
  | single a => exact ok_oneOf.2 ⟨_, .head _, ok_bind.2 ⟨a, key a hx, ok_pure.2 rfl⟩⟩
  | range a b => exact ok_oneOf.2 ⟨_, .tail _ (.head _), ok_bind.2 ⟨a, key a hx.1, ok_bind.2 ⟨b, key b hx.2, ok_pure.2 rfl⟩⟩⟩

/-- C58, a blind spot: the times that can be generated are exactly those without an offset to the west of UTC. -/
theorem C58_dateTime (t : DateTime) : dateTime (.ok t) ↔ DateTime.Inv t ∧ 0 ≤ t.offset := dateTime_ok t

variable [e : Entropy] [q : Quirks]

/-- C58, a blind spot: no generated body extension is a list, although there is code for this (imap-types/src/arbitrary.rs:461-478). -/
theorem C58_bodyExtension (x : BodyExtension) (h : bodyExtension (.ok x)) (l : List BodyExtension) : x ≠ .list l := by
  have one : ∀ {rest : Nat → Gen BodyExtension},
      (rest 1 = do return .nstring (← nstring)) → (rest 2 = do return .number (← u32)) → (do rest (← intIn 1 2)) (.ok x) → x ≠ .list l := by
    rintro rest h1 h2 h rfl
    rw [ok_bind] at h
    obtain ⟨n, hn, h⟩ := h
    have hn := (ok_any (p := fun n => 1 ≤ n ∧ n ≤ 2)).1 hn
    have : n = 1 ∨ n = 2 := by omega
    rcases this with rfl | rfl
    · rw [h1, ok_bind] at h
      obtain ⟨s, _, h⟩ := h
      cases ok_pure.1 h
    · rw [h2, ok_bind] at h
      obtain ⟨s, _, h⟩ := h
      cases ok_pure.1 h
  unfold bodyExtension at h
  split at h
  · exact one rfl rfl h
  · exact one rfl rfl h

omit q in
/-- C58, a blind spot: the mailboxes that can be generated are exactly those that `Mailbox::try_from` makes of a UTF-8 string. So no mailbox
is a quoted string or a literal if its name can be written as an atom. -/
theorem C58_mailbox (m : Mailbox) : mailbox (.ok m) ↔ ∃ v, v.length ≤ e.size ∧ isUtf8 v = true ∧ Mailbox.tryFrom v = .ok m := by
  simp only [mailbox, ok_bind, ok_of, str, ok_any, and_assoc]

end

/-! ### Concrete cases -/

section
attribute [local instance] Quirks.default

/-- Sixteen random bytes. -/
local instance : Entropy := ⟨16, false⟩

theorem str_ok {v : Bytes} (h : v.length ≤ 16) (hu : isUtf8 v = true) : str (.ok v) := ok_any.2 ⟨h, hu⟩

/-- The command `a COPY 2,1 INBOX`. -/
def copy21 : Command := ⟨b!"a", .copy [.single (.value 2), .single (.value 1)] .inbox false⟩

theorem copy21_generated : message .command (.ok copy21) := by
  refine ok_bind.2 ⟨b!"a", ok_bind.2 ⟨b!"a", str_ok (by decide) (by decide), ok_of.2 (by with_unfolding_all rfl)⟩,
    ok_bind.2 ⟨.copy [.single (.value 2), .single (.value 1)] .inbox false, ok_oneOf.2 ⟨_, List.mem_of_getElem? (i := 27) rfl, ?_⟩, ok_pure.2 rfl⟩⟩
  refine ok_bind.2 ⟨_, (C58_sequenceSet [.single (.value 2), .single (.value 1)]).2 ((SequenceSet.inv_iff _).1 (by decide)), ?_⟩
  refine ok_bind.2 ⟨.inbox, (C58_mailbox _).2 ⟨b!"inbox", by decide, by decide, by with_unfolding_all rfl⟩, ?_⟩
  exact ok_bind.2 ⟨false, ok_any.2 trivial, ok_pure.2 rfl⟩

/-- C58, negation: with the default features, the target command_to_bytes_and_back panics for `a COPY 2,1 INBOX`, which can be generated. -/
theorem C58_negation_command : message .command (.ok copy21) ∧ BackPanics .command copy21 :=
  ⟨copy21_generated, (C58_command (by decide) _ copy21_generated).1.2 fun e => by
    have : normSet [.single (.value 2), .single (.value 1)] = [.single (.value 2), .single (.value 1)] := by
      have := congrArg (fun c : Command => match c.body with | .copy s _ _ => s | _ => []) e
      exact this
    exact absurd this (by decide)⟩

/-- The response `* 1 FETCH (FLAGS (\Recent))` with an extension flag. -/
def fetchRecent : Response := .data (.fetch 1 [.flags [.flag (.extension b!"recent")]])

theorem fetchRecent_generated : message .response (.ok fetchRecent) := by
  refine ok_oneOf.2 ⟨_, List.mem_of_getElem? (i := 1) rfl, ok_bind.2 ⟨_, ok_oneOf.2 ⟨_, List.mem_of_getElem? (i := 11) rfl, ?_⟩, ok_pure.2 rfl⟩⟩
  refine ok_bind.2 ⟨1, ok_any.2 (by decide), ok_bind.2 ⟨_, ok_vec1 (by simp) ?_, ok_pure.2 rfl⟩⟩
  simp only [List.mem_singleton, forall_eq]
  refine ok_oneOf.2 ⟨_, List.mem_of_getElem? (i := 4) rfl, ok_bind.2 ⟨_, ok_vec ?_, ok_pure.2 rfl⟩⟩
  simp only [List.mem_singleton, forall_eq]
  refine ok_oneOf.2 ⟨_, List.mem_of_getElem? (i := 0) rfl, ok_bind.2 ⟨_, ?_, ok_pure.2 rfl⟩⟩
  exact ok_bind.2 ⟨b!"\\recent", str_ok (by decide) (by decide), ok_of.2 (by with_unfolding_all rfl)⟩

/-- C58, negation: with the default features, the target response_to_bytes_and_back panics for this response, which can be generated. -/
theorem C58_negation_response : message .response (.ok fetchRecent) ∧ BackPanics .response fetchRecent := by
  refine ⟨fetchRecent_generated, (C58_back_target (by decide) _ _ fetchRecent_generated).2 (.inl fun h => ?_)⟩
  exact h (.flags [.flag (.extension b!"recent")]) (.head _) b!"recent" (.head _) (by decide)

/-- The greeting `* OK [REFERRAL x] y`. -/
def referralGreeting : Greeting := ⟨.ok, some (.referral b!"x"), b!"y"⟩

theorem referralGreeting_generated : message .greeting (.ok referralGreeting) := by
  refine ok_bind.2 ⟨.ok, ok_oneOf.2 ⟨_, .head _, ok_pure.2 rfl⟩, ok_bind.2 ⟨_, ok_opt_some (a := .referral b!"x") ?_, ?_⟩⟩
  · exact ok_oneOf.2 ⟨_, List.mem_of_getElem? (i := 11) rfl, ok_onlyIf.2 ⟨rfl, ok_bind.2 ⟨_, str_ok (by decide) (by decide), ok_pure.2 rfl⟩⟩⟩
  · refine ok_bind.2 ⟨b!"y", ok_bind.2 ⟨b!"y", ?_, ok_pure.2 rfl⟩, ok_pure.2 rfl⟩
    exact ok_bind.2 ⟨b!"y", str_ok (by decide) (by decide), ok_of.2 (by with_unfolding_all rfl)⟩

/-- C58, negation: with the extension for referrals, the target greeting_to_bytes_and_back panics for this greeting, which can be
generated. So the condition of `C58_greeting` cannot be dropped. -/
theorem C58_negation_greeting : message .greeting (.ok referralGreeting) ∧ BackPanics .greeting referralGreeting :=
  ⟨referralGreeting_generated, (C58_back_target (by decide) _ _ referralGreeting_generated).2 (.inl fun h => h _ rfl)⟩

/-- The hypotheses of `C58_authenticate_data` are satisfiable. -/
example : message .authenticateData (.ok (.continue_ b!"secret")) ∧ ¬ BackPanics .authenticateData (.continue_ b!"secret") := by
  have h : message .authenticateData (.ok (.continue_ b!"secret")) :=
    ok_oneOf.2 ⟨_, .head _, ok_bind.2 ⟨_, ok_any.2 (by decide), ok_pure.2 rfl⟩⟩
  exact ⟨h, C58_authenticate_data (by decide) _ h⟩

/-- A time to the east of UTC can be generated, one to the west cannot. -/
example : dateTime (.ok ⟨⟨2024, 2, 29⟩, 12, 30, 59, 3600⟩) ∧ ¬ dateTime (.ok ⟨⟨2024, 2, 29⟩, 12, 30, 59, -3600⟩) := by
  rw [C58_dateTime, C58_dateTime]
  exact ⟨⟨(DateTime.inv_iff _).1 (by decide), by decide⟩, fun h => absurd h.2 (by decide)⟩

/-- A body extension that is a number can be generated; a mailbox can be generated as an atom, but not as a quoted string. -/
example : bodyExtension (.ok (.number 7)) ∧ mailbox (.ok (.other (.atom b!"x"))) ∧ ¬ mailbox (.ok (.other (.string (.quoted b!"x")))) := by
  refine ⟨ok_bind.2 ⟨2, ok_any.2 (by decide), ok_bind.2 ⟨7, ok_any.2 (by decide), ok_pure.2 rfl⟩⟩,
    (C58_mailbox _).2 ⟨b!"x", by decide, by decide, by with_unfolding_all rfl⟩, ?_⟩
  rw [C58_mailbox]
  rintro ⟨v, -, -, h⟩
  have hv : v = b!"x" := by
    by_cases h0 : 0 ∈ v
    · rcases all_or_firstBad NotNul v with ha | ⟨b, i, hb⟩
      · exact absurd rfl (ha 0 h0)
      · obtain rfl : b = 0 := by
          obtain ⟨_, _, _, _, _, hb⟩ := hb
          exact not_not.1 hb
        rw [(C26_tryFrom v).2 i hb] at h
        cases h
    · obtain ⟨m, hm, hn, -⟩ := (C26_tryFrom v).1 h0
      rw [hm] at h
      cases h
      rcases hn with ⟨_, h⟩ | ⟨_, s, h, e⟩
      · cases h
      · cases h
        exact e.symm
  subst hv
  have : Mailbox.tryFrom b!"x" = .ok (.other (.atom b!"x")) := by with_unfolding_all rfl
  rw [this] at h
  cases h

end

section
attribute [local instance] Quirks.bare
local instance : Entropy := ⟨16, true⟩

/-- The hypotheses of `C58_greeting` are satisfiable. -/
example : message .greeting (.ok ⟨.bye, none, b!"y"⟩) ∧ ¬ BackPanics .greeting ⟨.bye, none, b!"y"⟩ := by
  have h : message .greeting (.ok ⟨.bye, none, b!"y"⟩) := by
    refine ok_bind.2 ⟨.bye, ok_oneOf.2 ⟨_, List.mem_of_getElem? (i := 2) rfl, ok_pure.2 rfl⟩, ok_bind.2 ⟨_, ok_opt_none, ?_⟩⟩
    refine ok_bind.2 ⟨b!"y", ok_bind.2 ⟨b!"y", ?_, ok_pure.2 rfl⟩, ok_pure.2 rfl⟩
    exact ok_bind.2 ⟨b!"y", ok_any.2 (by decide), ok_of.2 (by with_unfolding_all rfl)⟩
  exact ⟨h, C58_greeting (by decide) rfl rfl rfl _ h⟩

end

end Imap.Arb
