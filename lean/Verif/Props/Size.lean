import Verif.SizeResponse
import Verif.Codec
/-
C60: what is decoded is not much larger when it is encoded again.
-/
namespace Imap

theorem len_eq_dump (ws : List W) : (dump (fragments ws)).length = len ws := by
  rw [dump_fragments]
  rfl

theorem outcomePlain_ok {α : Type} {r : Res α} {x : Bytes} {m : α} (h : outcomePlain r = .ok x m) : r = .ok x m := by
  cases r <;> simp_all [outcomePlain]

theorem outcomeCommand_ok {α : Type} {r : Res α} {x : Bytes} {m : α} (h : outcomeCommand r = .ok x m) : r = .ok x m := by
  unfold outcomeCommand at h
  split at h <;> simp_all

theorem outcomeResponse_ok {α : Type} {r : Res α} {x : Bytes} {m : α} (h : outcomeResponse r = .ok x m) : r = .ok x m := by
  unfold outcomeResponse at h
  split at h <;> simp_all

/-- Without the exception. -/
theorem size_plain [q : Quirks] (k : Codec) (hk : k ≠ .response ∨ q.emptyContinueReq = false) (x rest : Bytes) (m : k.Message)
    (h : k.decode x = .ok rest m) : (dump (k.encode m)).length ≤ 2 * (x.length - rest.length) := by
  rw [Codec.encode, len_eq_dump]
  cases k with
  | greeting =>
    have := Cost.uses (p := greeting) _ _ _ (outcomePlain_ok h)
    simp only [Codec.enc]
    omega
  | command =>
    have := Cost.uses (p := command) _ _ _ (outcomeCommand_ok h)
    simp only [Codec.enc]
    omega
  | authenticateData =>
    have := Cost.uses (p := authenticateData) _ _ _ (outcomePlain_ok h)
    simp only [Codec.enc]
    omega
  | response =>
    have hr := outcomeResponse_ok h
    have hq : q.emptyContinueReq = false := by simpa using hk
    simp only [response, hq, Bool.false_eq_true, if_false, List.nil_append] at hr
    have := uses_response_plain _ _ _ hr
    dsimp only at this
    simp only [Codec.enc]
    omega
  | idleDone =>
    have := Cost.uses (p := idleDone) _ _ _ (outcomePlain_ok h)
    simp only [Codec.enc]
    omega

/-- C60. If a decoder accepts a message at the start of the bytes `x` and leaves `rest`, then encoding that message takes at most twice as
many bytes as the decoder has consumed. There is a single exception: the placeholder `+ ...`, which a quirk reads for an empty
continuation request. This holds for every codec, every input, every choice of quirks and every choice of Cargo features. -/
theorem C60_no_amplification [q : Quirks] (k : Codec) (x rest : Bytes) (m : k.Message) (h : k.decode x = .ok rest m) :
    (dump (k.encode m)).length ≤ 2 * (x.length - rest.length) ∨
      k = .response ∧ q.emptyContinueReq = true ∧ dump (k.encode m) = b!"+ ...\r\n" ∧ rest.length + 2 ≤ x.length := by
  by_cases hk : k ≠ .response ∨ q.emptyContinueReq = false
  · exact .inl (size_plain k hk x rest m h)
  · obtain ⟨rfl, hq⟩ : k = .response ∧ q.emptyContinueReq = true := by simpa using hk
    have := uses_response _ _ _ (outcomeResponse_ok h)
    simp only [Codec.encode, Codec.enc]
    dsimp only at this
    split at this
    · rename_i hp
      refine .inr ⟨trivial, hq, ?_, by omega⟩
      rw [hp, dump_fragments]
      rfl
    · left
      rw [len_eq_dump]
      omega

/-- The hypothesis is met by a sequence set that is not normalized. -/
example := @C60_no_amplification Quirks.default .command b!"a UID COPY 3,1,2 \"INBOX\"\r\nrest" b!"rest"
  ⟨b!"a", .copy [.single (.value 3), .single (.value 1), .single (.value 2)] .inbox true⟩ (by with_unfolding_all rfl)

/-- C60 as one bound. -/
theorem C60_bound [Quirks] (k : Codec) (x rest : Bytes) (m : k.Message) (h : k.decode x = .ok rest m) :
    (dump (k.encode m)).length ≤ max 7 (2 * (x.length - rest.length)) := by
  rcases C60_no_amplification k x rest m h with h | ⟨_, _, h, _⟩
  · omega
  · rw [h]
    simp

/-- An ordinary message shrinks: the set is normalized, the spelling of the mailbox is the shorter one. -/
example : letI := Quirks.default; ∃ m, Codec.decode .command b!"a UID COPY 3,1,2 \"INBOX\"\r\nrest" = .ok b!"rest" m ∧
    (dump (Codec.encode .command m)).length ≤ 2 * 27 := ⟨_, by with_unfolding_all rfl, by decide +kernel⟩

/-- The factor two is reached: five bytes become ten. -/
theorem C60_tight : letI : Quirks := { Quirks.default with crlfRelaxed := true }
    ∃ m, Codec.decode .response b!"+ []\n" = .ok [] m ∧ dump (Codec.encode .response m) = b!"+ [] ...\r\n" :=
  ⟨_, by with_unfolding_all rfl, by decide +kernel⟩

/-- The exception exists: two bytes become seven. -/
theorem C60_exception : letI : Quirks := { Quirks.default with crlfRelaxed := true }
    ∃ m, Codec.decode .response b!"+\n" = .ok [] m ∧ dump (Codec.encode .response m) = b!"+ ...\r\n" :=
  ⟨_, by with_unfolding_all rfl, by decide +kernel⟩

end Imap
