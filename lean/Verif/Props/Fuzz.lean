import Verif.Props.RoundTrip
import Verif.FuzzLemmas
import Verif.Framing
import Verif.WellFormed
/-
Property C55: what the fuzz targets of the repository can find. The targets are in Verif/Fuzz.lean.
-/
set_option maxRecDepth 10000

namespace Imap
open Fuzz

section
variable [Quirks]

/-- The message is a FETCH response with the item MODSEQ. -/
def HasModSeq : (k : Codec) → k.Message → Prop
  | .response, m => ∃ n items q, m = .data (.fetch n items) ∧ MessageDataItem.modSeq q ∈ items
  | _, _ => False

/-- C55: for which inputs the targets greeting, command, response and authenticate_data panic: exactly for those that are decoded
to a message that its encoder normalizes to another one, or to a FETCH response with the item MODSEQ. -/
theorem C55_decode_target (k : Codec) (x : Bytes) :
    DecodePanics k x ↔ ∃ rem m, k.decode x = .ok rem m ∧ (k.norm m ≠ m ∨ HasModSeq k m) := by
  constructor
  · rintro (h | ⟨rem, m, h, hp⟩)
    · exact absurd h (C08_decode_never_panics k x)
    · refine ⟨rem, m, h, ?_⟩
      by_contra hc
      simp only [not_or, not_not] at hc
      have e : k.decode (dump (k.encode m)) = .ok [] (k.norm m) := by
        by_cases hk : k = .response
        · subst hk
          exact (C11_response_reencode_partial x rem m h fun n items q e hq => hc.2 ⟨n, items, q, e, hq⟩).1
        · exact (C11_reencode k hk x rem m h).1
      rw [hc.1] at e
      rcases hp with hp | ⟨rem', m', hp, hn⟩
      · exact hp _ _ e
      · rw [e] at hp
        cases hp
        simp at hn
  · rintro ⟨rem, m, h, hp⟩
    refine .inr ⟨rem, m, h, ?_⟩
    by_cases hm : HasModSeq k m
    · cases k with
      | response =>
        obtain ⟨n, items, q, rfl, hq⟩ := hm
        have := C11_modSeq x rem n items h q hq []
        rw [List.append_nil] at this
        refine .inl fun r p => ?_
        rw [this]
        simp
      | _ => exact hm.elim
    · have hn : k.norm m ≠ m := hp.resolve_right hm
      have e : k.decode (dump (k.encode m)) = .ok [] (k.norm m) := by
        by_cases hk : k = .response
        · subst hk
          exact (C11_response_reencode_partial x rem m h fun n items q e hq => hm ⟨n, items, q, e, hq⟩).1
        · exact (C11_reencode k hk x rem m h).1
      exact .inr ⟨[], _, e, .inr (Ne.symm hn)⟩

/-- C55: the target authenticate_data never panics. -/
theorem C55_authenticate_data (x : Bytes) : ¬ DecodePanics .authenticateData x := by
  rw [C55_decode_target]
  rintro ⟨rem, m, _, h | h⟩
  · exact h rfl
  · exact h

/-- C55: without the two normalizing quirks the targets greeting and command never panic, and the target response panics exactly for
FETCH responses with the item MODSEQ. -/
theorem C55_decode_target_off (hq : Quirks.alwaysNormalizeSequenceSets = false) (hi : Quirks.idEmptyToNil = false) (k : Codec) (x : Bytes) :
    DecodePanics k x ↔ ∃ rem m, k.decode x = .ok rem m ∧ HasModSeq k m := by
  rw [C55_decode_target]
  simp only [Codec.norm_off hq hi, ne_eq, not_true_eq_false, false_or]

/-- C55: for which messages the targets *_to_bytes_and_back panic: exactly for those that are not supported or that the encoder
normalizes to another one. `Supported` is specified in Verif/WellFormed.lean. -/
theorem C55_back_target (k : Codec) (m : k.Message) : ¬ BackPanics k m ↔ Supported k m ∧ k.norm m = m := by
  rw [← round_trip_iff]
  unfold BackPanics
  constructor
  · intro h
    by_contra hc
    apply h
    by_cases ho : ∃ r p, k.decode (dump (k.encode m)) = .ok r p
    · obtain ⟨r, p, e⟩ := ho
      refine .inr ⟨r, p, e, ?_⟩
      by_contra hh
      simp only [ne_eq, not_or, not_not] at hh
      rw [hh.1, ← hh.2] at e
      exact hc e
    · exact .inl fun r p e => ho ⟨r, p, e⟩
  · rintro e (h | ⟨r, p, h, hn⟩)
    · exact h _ _ e
    · rw [e] at h
      cases h
      simp at hn

end

/-- C55: the target fragmentizer never panics: in any history of this form, without a limit or with any limit, no more bytes are
emitted than were enqueued, and they are a prefix of the enqueued bytes if these fit the limit. -/
theorem C55_fragmentizer (mms : Option Nat) (data : List Bytes) : ¬ FragmentizerPanics mms data := by
  obtain ⟨ops, h1, h2, h3⟩ := emitted_ops (.init mms) data
  have h := Frag.emitted_run mms ops h1
  rw [h2, h3] at h
  rintro (hl | ⟨hf, hl | hp⟩)
  · exact hl h.1
  · have := h.1; omega
  · refine hp (List.prefix_iff_eq_take.1 (h.2 fun n e => ?_))
    subst e
    exact hf

/-- C55: the target tags_structured never panics. -/
theorem C55_tags (tag : Bytes) (noise : Option Bytes) : ¬ TagPanics tag noise := by
  rintro ⟨rem, parsed, h, hp⟩
  obtain ⟨e, _, hc⟩ := Frame.takeWhile1_ok' h
  rcases hp with hp | hp
  · rw [isUtf8_of_ascii] at hp
    · simp at hp
    · intro b hb
      have : ∀ n, n < 256 → isTagChar (UInt8.ofNat n) = true → UInt8.ofNat n < 0x80 := by decide
      have h2 := this b.toNat b.toNat_lt
      simp only [UInt8.ofNat_toNat] at h2
      exact h2 (hc b hb)
  · rw [e] at hp
    exact hp (List.prefix_append _ _)

/-! ### What the targets find -/

section
attribute [local instance] Quirks.default

/-- C55, a finding: with the default features the target command panics, for this input of the base protocol: the decoder returns the
set 2,1 and the encoder writes 1:2. -/
theorem C55_command_negation : DecodePanics .command b!"A COPY 2,1 x\r\n" := by
  rw [C55_decode_target]
  refine ⟨[], ⟨b!"A", .copy [.single (.value 2), .single (.value 1)] (.other (.atom b!"x")) false⟩, by with_unfolding_all rfl, .inl fun h => ?_⟩
  have : (⟨b!"A", .copy [.range (.value 1) (.value 2)] (.other (.atom b!"x")) false⟩ : Command) =
    ⟨b!"A", .copy [.single (.value 2), .single (.value 1)] (.other (.atom b!"x")) false⟩ := h
  simp at this

/-- C55, a finding: with the feature ext_condstore_qresync the target response panics for a FETCH response with MODSEQ. The fuzz crate
leaves this feature out of its feature `ext` (imap-codec/fuzz/Cargo.toml:37-38). -/
theorem C55_response_negation : DecodePanics .response b!"* 1 FETCH (MODSEQ (5))\r\n" := by
  rw [C55_decode_target]
  exact ⟨[], .data (.fetch 1 [.modSeq 5]), by with_unfolding_all rfl, .inr ⟨1, [.modSeq 5], 5, rfl, by simp⟩⟩

/-- An input with a sequence set that is its own normalization: no panic. -/
example : ¬ DecodePanics .command b!"A COPY 1:2 x\r\n" := by
  rw [C55_decode_target]
  rintro ⟨rem, m, h, hp⟩
  have e : Codec.command.decode b!"A COPY 1:2 x\r\n" = .ok [] ⟨b!"A", .copy [.range (.value 1) (.value 2)] (.other (.atom b!"x")) false⟩ := by
    with_unfolding_all rfl
  rw [e] at h
  cases h
  rcases hp with hp | hp
  · exact hp (by with_unfolding_all rfl)
  · exact hp

/-- The target fragmentizer emits a complete line once more data arrives. -/
example : emitted (.init none) [b!"a\r\nb", b!"\r\n", b!""] = b!"a\r\nb\r\n" := by
  decide +kernel
end

end Imap
