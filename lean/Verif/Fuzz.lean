import Verif.Codec
import Verif.FragInv
set_option maxRecDepth 10000
/-! # The fuzz targets of imap-codec/fuzz

A fuzz target is a program that panics or does not. Each target is modelled by the proposition that one run of it panics. The
features `debug` and `split` (printing, and code that is commented out) are not modelled. The targets are compiled with the
default features of imap-codec, that is with all quirks (imap-codec/fuzz/Cargo.toml:53); the definitions are for any quirks. -/
namespace Imap.Fuzz

/-- `impl_decode_target!` (imap-codec/fuzz/src/lib.rs:1-76), used by the targets greeting, command, response and
authenticate_data (imap-codec/fuzz/fuzz_targets/{greeting,command,response,authenticate_data}.rs:1-6): one run on `input` panics.
The cases: `decode` panics (line 17), `decode(&output).unwrap()` panics (line 29), the remainder is not empty (line 32), the
messages differ (line 34). -/
def DecodePanics [Quirks] (k : Codec) (input : Bytes) : Prop :=
  k.decode input = .panicked ∨
  ∃ rem parsed1, k.decode input = .ok rem parsed1 ∧
    ((∀ rem' parsed2, k.decode (dump (k.encode parsed1)) ≠ .ok rem' parsed2) ∨
     ∃ rem' parsed2, k.decode (dump (k.encode parsed1)) = .ok rem' parsed2 ∧ (rem' ≠ [] ∨ parsed1 ≠ parsed2))

/-- `impl_to_bytes_and_back!` (imap-codec/fuzz/src/lib.rs:78-108), used by the targets *_to_bytes_and_back
(imap-codec/fuzz/fuzz_targets/*_to_bytes_and_back.rs:1-6): one run on `input` panics. -/
def BackPanics [Quirks] (k : Codec) (input : k.Message) : Prop :=
  (∀ rem parsed, k.decode (dump (k.encode input)) ≠ .ok rem parsed) ∨
  ∃ rem parsed, k.decode (dump (k.encode input)) = .ok rem parsed ∧ (rem ≠ [] ∨ input ≠ parsed)

open Frag in
/-- The inner loop of the target fragmentizer (imap-codec/fuzz/fuzz_targets/fragmentizer.rs:20-33): all fragments until `progress`
returns `None`, and the state then. -/
def drain (s : State) : Bytes × State :=
  match _h : s.progress with
  | (s', none) => ([], s')
  | (s', some info) =>
    let r := drain s'
    (s'.fragmentBytes info ++ r.1, r.2)
termination_by 2 * s.unparsed.length + rank s.parser
decreasing_by exact progress_rank _ _ _ _h

open Frag in
/-- The outer loop of the target fragmentizer (imap-codec/fuzz/fuzz_targets/fragmentizer.rs:19-34): `emitted_bytes`. -/
def emitted (s : State) : List Bytes → Bytes
  | [] => []
  | chunk :: data =>
    let r := drain s
    r.1 ++ emitted (r.2.enqueue chunk) data

open Frag in
/-- The target fragmentizer (imap-codec/fuzz/fuzz_targets/fragmentizer.rs:6-51): one run panics. The slice in line 49 panics too
if the emitted bytes are longer than the data. -/
def FragmentizerPanics (mms : Option Nat) (data : List Bytes) : Prop :=
  let emitted := emitted (State.init mms) data
  let flat := data.flatten
  ¬ emitted.length ≤ flat.length ∨
  ((match mms with | some n => flat.length ≤ n | none => True) ∧
    (flat.length < emitted.length ∨ emitted ≠ flat.take emitted.length))

/-- The target tags_structured (imap-codec/fuzz/fuzz_targets/tags_structured.rs:25-51): one run panics. `fuzz_tag_imap`
(imap-codec/src/core.rs:305-321) is `tag_imap` with another error type; its `from_utf8(val).unwrap()` (line 298) is the first
case. `str::starts_with` compares bytes. -/
def TagPanics (tag : Bytes) (noise : Option Bytes) : Prop :=
  let input := tag ++ noise.getD []
  ∃ rem parsed, tagImap input = .ok rem parsed ∧ (isUtf8 parsed = false ∨ ¬ parsed <+: input)

end Imap.Fuzz
