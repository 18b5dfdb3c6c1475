import Verif.ExtTypes
import Verif.Props.Constructors

/-!
# C37, continued: what the other constructors make can be sent, and arrives
-/
set_option maxRecDepth 10000
namespace Imap

open Spec

variable [Quirks]

/-- What the client gets when the server sends data. -/
def ArrivesData (sent got : Data) : Prop :=
  ∀ rest, Codec.response.decode (dump (Codec.response.encode (.data sent)) ++ rest) = .ok rest (.data got)

theorem arrivesData {d : Data} (h : Data.Inv .rt d) : ArrivesData d d.norm := fun rest => round_trip .response (.data d) h rest

omit [Quirks] in
/-- C37: `Command::new` accepts exactly the tags of the formal syntax, and keeps tag and body. -/
theorem C37_command (tag : Bytes) (body : CommandBody) :
    (Str1 TagChar tag → Command.mk' (Tag.tryFrom tag) body = .ok ⟨tag, body⟩) ∧
    (¬ Str1 TagChar tag → ∃ e, Command.mk' (Tag.tryFrom tag) body = .err e) := by
  refine ⟨fun h => ?_, fun h => ?_⟩
  · rw [(C25_tag.2 tag).1 h]; rfl
  · by_cases ht : tag = []
    · exact ⟨.empty, by rw [ht, C25_tag.1]; rfl⟩
    · rcases all_or_firstBad TagChar tag with hc | ⟨b, i, hb⟩
      · exact absurd ⟨ht, hc⟩ h
      · exact ⟨.invalidByteAt b i, by rw [(C25_tag.2 tag).2 b i hb]; rfl⟩

/-- C37 for AUTHENTICATE: any data can be sent as initial response, and arrives unchanged. -/
theorem C37_authenticate (tag data : Bytes) (ht : Str1 TagChar tag) (m : AuthMechanism) (hm : AuthMechanism.Inv .rt m) :
    Arrives tag (CommandBody.mkAuthenticate m) (.authenticate m none) ∧
    Arrives tag (CommandBody.mkAuthenticateWithIr m data) (.authenticate m (some data)) :=
  ⟨arrives ht (c := .authenticate m none) hm, arrives ht (c := .authenticate m (some data)) hm⟩

/-- C37 for SEARCH. -/
theorem C37_search (tag : Bytes) (ht : Str1 TagChar tag) (charset : Option Charset) (hc : Opt Charset.Inv charset)
    (keys : List SearchKey) (hk : Criteria.Inv .rt keys) (uid : Bool) :
    Arrives tag (CommandBody.mkSearch charset keys uid) (.search charset (keys.map SearchKey.norm) uid) :=
  arrives ht (c := .search charset keys uid) ⟨hc, hk⟩

/-- C37 for the commands of extensions with a mailbox or a quota root. -/
theorem C37_extensions (tag v : Bytes) (ht : Str1 TagChar tag) (hv : Sendable v) (s : SequenceSet) (hs : SequenceSet.Inv s) (uid : Bool)
    (quotas : List (Resource × Nat)) (hq : ∀ q ∈ quotas, Resource.Inv q.1 ∧ q.2 < 2 ^ 64) :
    ∃ m r, Names m v ∧ r.content = v ∧
      (∃ c, CommandBody.mkGetQuota (AString.tryFrom v) = .ok c ∧ Arrives tag c (.getQuota r)) ∧
      (∃ c, CommandBody.mkGetQuotaRoot (Mailbox.tryFrom v) = .ok c ∧ Arrives tag c (.getQuotaRoot m)) ∧
      (∃ c, CommandBody.mkSetQuota (AString.tryFrom v) (.ok (quotas.map fun q => QuotaSet.mk' q.1 q.2) : Made Empty _) = .ok c ∧
        Arrives tag c (.setQuota r (quotas.map fun q => ⟨q.1, q.2⟩))) ∧
      (∃ c, CommandBody.mkMove (.ok s : Made ValidationError _) (Mailbox.tryFrom v) uid = .ok c ∧
        Arrives tag c (.move (normSet s) m uid)) := by
  obtain ⟨m, hm, hmn, -, hmi⟩ := (C26_tryFrom v).1 hv.1
  obtain ⟨r, hr, hrc, hri⟩ := C25_sendable hv
  rw [hm, hr]
  have hset : ∀ qs, All QuotaSet.Inv qs → Arrives tag (.setQuota r qs) (.setQuota r qs) := fun qs h =>
    arrives ht (c := .setQuota r qs) ⟨hri, h⟩
  have hqs : All QuotaSet.Inv (quotas.map fun q => ⟨q.1, q.2⟩) := by
    intro x hx
    obtain ⟨q, hq', rfl⟩ := List.mem_map.1 hx
    exact hq q hq'
  exact ⟨m, r, hmn, hrc, ⟨.getQuota r, rfl, arrives ht (c := .getQuota r) hri⟩,
    ⟨.getQuotaRoot m, rfl, arrives ht (c := .getQuotaRoot m) (hmi hv.2)⟩,
    ⟨.setQuota r _, rfl, hset _ hqs⟩,
    ⟨.move s m uid, rfl, arrives ht (c := .move s m uid) ⟨hs, hmi hv.2⟩⟩⟩

/-- C37 for the commands of extensions without strings. -/
theorem C37_plain (tag : Bytes) (ht : Str1 TagChar tag) (caps : List CapabilityEnable) (hc : All CapabilityEnable.Inv caps) :
    (caps ≠ [] → ∃ c, CommandBody.mkEnable (VecN.tryFrom 1 caps) = .ok c ∧ Arrives tag c (.enable caps)) ∧
    (caps = [] → CommandBody.mkEnable (VecN.tryFrom 1 caps) = .err (.notEnough 1)) ∧
    Arrives tag CommandBody.mkCompress .compress ∧ (Quirks.extNamespace = true → Arrives tag CommandBody.mkNamespace .namespace_) ∧
    Arrives tag CommandBody.mkUnselect .unselect := by
  refine ⟨fun h => ⟨.enable caps, ?_, arrives ht (c := .enable caps) ⟨h, hc⟩⟩, ?_, arrives ht (c := .compress) trivial,
    fun hf => arrives ht (c := .namespace_) hf, arrives ht (c := .unselect) trivial⟩
  · have : ¬ caps.length < 1 := by have := List.length_pos_iff.2 h; omega
    simp only [VecN.tryFrom, if_neg this]
    rfl
  · rintro rfl
    rfl

/-- C37 for CAPABILITY, EXPUNGE and FETCH: the empty list and the number zero are rejected, and all others arrive. -/
theorem C37_data (n : Nat) (hn : n < 2 ^ 32) (caps : List Capability) (hc : All (Capability.Inv .rt) caps)
    (items : List MessageDataItem) (hi : All (MessageDataItem.Inv .rt) items) :
    (caps = [] → Data.mkCapability (VecN.tryFrom 1 caps) = .err (.notEnough 1)) ∧
    (caps ≠ [] → ∃ d, Data.mkCapability (VecN.tryFrom 1 caps) = .ok d ∧ ArrivesData d (.capability caps)) ∧
    (n = 0 → Data.mkExpunge n = .err () ∧ Data.mkFetch (nonZeroU32 n) (VecN.tryFrom 1 items) = .err (.first ())) ∧
    (n ≠ 0 → ∃ d, Data.mkExpunge n = .ok d ∧ ArrivesData d (.expunge n)) ∧
    (n ≠ 0 → items = [] → Data.mkFetch (nonZeroU32 n) (VecN.tryFrom 1 items) = .err (.second (.notEnough 1))) ∧
    (n ≠ 0 → items ≠ [] → ∃ d, Data.mkFetch (nonZeroU32 n) (VecN.tryFrom 1 items) = .ok d ∧ ArrivesData d (.fetch n items)) := by
  have v1 : ∀ {α : Type} {l : List α}, l ≠ [] → VecN.tryFrom 1 l = .ok l := by
    intro α l h
    have : ¬ l.length < 1 := by have := List.length_pos_iff.2 h; omega
    simp only [VecN.tryFrom, if_neg this]
  refine ⟨?_, fun h => ⟨.capability caps, by rw [v1 h]; rfl, arrivesData (d := .capability caps) ⟨h, hc⟩⟩, ?_,
    fun h => ⟨.expunge n, ?_, arrivesData (d := .expunge n) ⟨by omega, hn⟩⟩, ?_,
    fun h h' => ⟨.fetch n items, ?_, arrivesData (d := .fetch n items) ⟨⟨by omega, hn⟩, h', hi⟩⟩⟩
  · rintro rfl; rfl
  · rintro rfl; exact ⟨rfl, rfl⟩
  · simp only [Data.mkExpunge, nonZeroU32, if_neg h]; rfl
  · rintro h rfl
    simp only [Data.mkFetch, nonZeroU32, if_neg h]; rfl
  · rw [v1 h']
    simp only [Data.mkFetch, nonZeroU32, if_neg h]; rfl

theorem istring_sendable {v : Bytes} (h : Sendable v) : ∃ s, IString.tryFrom v = .ok s ∧ s.content = v ∧ IString.Inv .rt s := by
  by_cases ht : ∀ b ∈ v, TextChar b
  · exact ⟨_, (C25_istring v).1 ht, rfl, ht⟩
  · push Not at ht
    exact ⟨_, (C25_istring v).2.1 ht h.1, rfl, h.1, fun _ => h.2⟩

/-- C37 for QUOTA, QUOTAROOT and NAMESPACE (with the feature `ext_namespace`). -/
theorem C37_data_extensions (v p : Bytes) (hv : Sendable v) (hp : Sendable p) (resource : Resource) (hr : Resource.Inv resource)
    (usage limit : Nat) (hu : usage < 2 ^ 64) (hl : limit < 2 ^ 64) (delimiter : Option UInt8) (hd : Opt TextChar delimiter)
    (other shared : List Namespace) (ho : All (Namespace.Inv .rt) other) (hs : All (Namespace.Inv .rt) shared) :
    ∃ m r pre, Names m v ∧ r.content = v ∧ pre.content = p ∧ IString.tryFrom p = .ok pre ∧
      (∃ d, Data.mkQuota (AString.tryFrom v) (VecN.tryFrom 1 [QuotaGet.mk' resource usage limit]) = .ok d ∧
        ArrivesData d (.quota r [⟨resource, usage, limit⟩])) ∧
      (∃ d, Data.mkQuotaRoot (Mailbox.tryFrom v) (.ok [r] : Made Empty _) = .ok d ∧ ArrivesData d (.quotaRoot m [r])) ∧
      (Quirks.extNamespace = true → ∃ d, Data.mkNamespace (.ok [Namespace.mk' pre delimiter] : Made Empty _) (.ok other : Made Empty _)
        (.ok shared : Made Empty _) = .ok d ∧ ArrivesData d (.namespace_ [⟨pre, delimiter, []⟩] other shared)) := by
  obtain ⟨m, hm, hmn, -, hmi⟩ := (C26_tryFrom v).1 hv.1
  obtain ⟨r, hr', hrc, hri⟩ := C25_sendable hv
  obtain ⟨pre, hpre, hpc, hpi⟩ := istring_sendable hp
  rw [hm, hr']
  exact ⟨m, r, pre, hmn, hrc, hpc, hpre,
    ⟨.quota r [⟨resource, usage, limit⟩], rfl, arrivesData (d := .quota r [⟨resource, usage, limit⟩])
      ⟨hri, by simp, by simpa using ⟨hr, hu, hl⟩⟩⟩,
    ⟨.quotaRoot m [r], rfl, arrivesData (d := .quotaRoot m [r]) ⟨hmi hv.2, by simpa [All] using hri⟩⟩,
    fun hf => ⟨.namespace_ [⟨pre, delimiter, []⟩] other shared, rfl, arrivesData (d := .namespace_ [⟨pre, delimiter, []⟩] other shared)
      ⟨hf, by simpa [All] using ⟨hpi, hd, by simp [All]⟩, ho, hs⟩⟩⟩

/-- C37 for BYE. -/
theorem C37_bye (text rest : Bytes) (h : Str1 TextChar text) (hb : text.head? ≠ some 91) :
    ∃ s, Status.mkBye none (Text.tryFrom text) = .ok s ∧
      Codec.response.decode (dump (Codec.response.encode (.status s)) ++ rest) = .ok rest (.status (.bye none text)) := by
  rw [(C25_text.2 text).1 h]
  exact ⟨_, rfl, round_trip .response (.status (.bye none text)) ⟨h, by simp [Opt], fun _ _ => hb⟩ rest⟩

/-- C37 for the modes of literals: a message of APPEND arrives unchanged in either mode, and in this mode. -/
theorem C37_literal_mode (tag msg : Bytes) (m : Mailbox) (hm : Mailbox.Inv .rt m) (ht : Str1 TagChar tag) (h : Sendable msg) :
    ∃ l, Literal.tryFrom msg = .ok l ∧
      Arrives tag (.append m [] none (.literal l.intoSync)) (.append m [] none (.literal ⟨msg, .sync⟩)) ∧
      Arrives tag (.append m [] none (.literal l.intoNonSync)) (.append m [] none (.literal ⟨msg, .nonSync⟩)) :=
  ⟨_, (C25_literal msg).1 fun b hb e => h.1 (e ▸ hb),
    arrives ht (c := .append m [] none (.literal ⟨msg, .sync⟩)) ⟨hm, by simp [All], by simp [Opt], h.1, fun _ => h.2⟩,
    arrives ht (c := .append m [] none (.literal ⟨msg, .nonSync⟩)) ⟨hm, by simp [All], by simp [Opt], h.1, fun _ => h.2⟩⟩

omit [Quirks] in
/-- C37: an invalid argument of these constructors is reported as the error of this argument, and the first argument has precedence. -/
theorem C37_errors_extensions {ε δ ζ : Type} (e : ε) (d : δ) (z : ζ) (a : AString) (m : Mailbox) (s : SequenceSet) (l l' : List Namespace)
    (quotas : Made δ (List QuotaSet)) (mailbox : Made δ Mailbox) (gets : Made δ (List QuotaGet)) (roots : Made δ (List AString))
    (other : Made δ (List Namespace)) (shared : Made ζ (List Namespace)) (uid : Bool) :
    CommandBody.mkEnable (.err e) = .err e ∧ CommandBody.mkGetQuota (.err e) = .err e ∧ CommandBody.mkGetQuotaRoot (.err e) = .err e ∧
    CommandBody.mkSetQuota (.err e) quotas = .err (.first e) ∧ CommandBody.mkSetQuota (.ok a : Made ε _) (.err d) = .err (.second d) ∧
    CommandBody.mkMove (.err e) mailbox uid = .err (.first e) ∧ CommandBody.mkMove (.ok s : Made ε _) (.err d) uid = .err (.second d) ∧
    Data.mkQuota (.err e) gets = .err (.first e) ∧ Data.mkQuota (.ok a : Made ε _) (.err d) = .err (.second d) ∧
    Data.mkQuotaRoot (.err e) roots = .err (.first e) ∧ Data.mkQuotaRoot (.ok m : Made ε _) (.err d) = .err (.second d) ∧
    Data.mkNamespace (.err e) other shared = .err (.inl e) ∧ Data.mkNamespace (.ok l : Made ε _) (.err d) shared = .err (.inr (.inl d)) ∧
    Data.mkNamespace (.ok l : Made ε _) (.ok l' : Made δ _) (.err z) = .err (.inr (.inr z)) :=
  ⟨rfl, rfl, rfl, rfl, rfl, rfl, rfl, rfl, rfl, rfl, rfl, rfl, rfl, rfl⟩

end Imap

/-! ## Examples -/

namespace Imap.Constructors2Examples

open Imap Imap.Spec

attribute [local instance] Quirks.default

/-- An initial response with the bytes of a line break arrives. -/
example : Arrives b!"A1" (CommandBody.mkAuthenticateWithIr .plain b!"\x00u\r\n") (.authenticate .plain (some b!"\x00u\r\n")) :=
  (C37_authenticate b!"A1" b!"\x00u\r\n" (by decide) .plain trivial).2

/-- The hypotheses of `C37_extensions` and `C37_data_extensions` are met: a quota root with a space. -/
example : Sendable b!"my root" ∧ Str1 TagChar b!"A1" ∧ SequenceSet.Inv [.single (.value 1)] ∧
    (∀ q ∈ [(Resource.storage, 10)], Resource.Inv q.1 ∧ q.2 < 2 ^ 64) :=
  ⟨⟨by decide, by decide⟩, by decide, ⟨by simp, by simp [Sequence.Inv, SeqOrUid.Inv, NZ32]⟩, by simp [Resource.Inv]⟩

/-- The hypotheses of `C37_data_extensions` are met by a namespace of other users. -/
example : Opt TextChar (some 47) ∧ All (Namespace.Inv .rt) [⟨.quoted b!"~", some 47, []⟩] := by
  refine ⟨by simp [Opt]; decide, ?_⟩
  simp only [All, List.mem_singleton, forall_eq]
  exact ⟨(by decide : ∀ b ∈ b!"~", TextChar b), by simp [Opt]; decide, by simp [All]⟩

/-- The hypotheses of `C37_data` are met. -/
example : All (Capability.Inv .rt) [.imap4Rev1, .auth .plain] ∧ All (MessageDataItem.Inv .rt) [.rfc822Size 5] := by
  constructor
  · intro c hc
    simp only [List.mem_cons, List.not_mem_nil, or_false] at hc
    rcases hc with rfl | rfl <;> trivial
  · intro c hc
    simp only [List.mem_singleton] at hc
    subst hc
    simp [MessageDataItem.Inv]

end Imap.Constructors2Examples
