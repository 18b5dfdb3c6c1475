import Verif.MemoryResponse
import Verif.Props.Size
import Verif.Props.Quirks
/-
C62: what is decoded is not much larger than what was read.
-/
namespace Imap

/-- The same build, but its encoder does not normalize sequence sets. -/
abbrev Quirks.raw (q : Quirks) : Quirks := { q with alwaysNormalizeSequenceSets := false }

instance (q : Quirks) : Spec.Extends q q.raw := by constructor <;> exact id

instance (q : Quirks) : Spec.MoreQuirks q q.raw := ⟨rfl, rfl, rfl, rfl, rfl, rfl, rfl, rfl⟩

instance (q : Quirks) : @Serde.Raw q.raw := @Serde.Raw.mk q.raw rfl

/-- A message of the library is at most 64 times as large as its encoding. -/
theorem size_le_encode [q : Quirks] [Serde.Raw] (k : Codec) (m : k.Message) :
    (k.serde.ser m).size ≤ 64 * (dump (k.encode m)).length + 40 := by
  rw [Codec.encode, len_eq_dump]
  cases k with
  | greeting => have := Serde.mem_greeting m; simp only [Codec.serde, Codec.enc]; omega
  | command => have := Serde.mem_command m; simp only [Codec.serde, Codec.enc]; omega
  | authenticateData => have := Serde.mem_authenticateData m; simp only [Codec.serde, Codec.enc]; omega
  | response => have := Serde.mem_response m; simp only [Codec.serde, Codec.enc]; omega
  | idleDone => simp [Codec.serde, Codec.enc, Serde.idleDone]

/-- C62. If a decoder accepts a message at the start of the bytes `x` and leaves `rest`, then the message, as serde shows it, has at most
128 values and bytes of text for each byte that was consumed, and 488 more: no input makes the decoder build a message that is out of
proportion to it. This holds for every codec, every input, every choice of quirks and every choice of Cargo features. -/
theorem C62_memory [q : Quirks] (k : Codec) (x rest : Bytes) (m : k.Message) (h : k.decode x = .ok rest m) :
    (k.serde.ser m).size ≤ 128 * (x.length - rest.length) + 488 := by
  have h1 := C61_same q q.raw id k x rest m h
  have h2 := @C60_bound q.raw k x rest m h1
  have h3 := @size_le_encode q.raw _ k m
  omega

/-- The hypothesis is met by a sequence set that is not normalized: the decoder consumes 24 bytes. -/
example := @C62_memory Quirks.default .command b!"a UID COPY 3,1,2 INBOX\r\nrest" b!"rest"
  ⟨b!"a", .copy [.single (.value 3), .single (.value 1), .single (.value 2)] .inbox true⟩ (by with_unfolding_all rfl)

/-- Its size. -/
example : (Codec.serde .command |>.ser
    ⟨b!"a", .copy [.single (.value 3), .single (.value 1), .single (.value 2)] .inbox true⟩).size = 177 := by decide +kernel

end Imap
