import Verif.Memory
set_option maxRecDepth 10000
/-! How large the serialized value of a message is, compared with its encoding: responses. -/
namespace Imap.Serde

open Imap

/-- A list whose encodings follow each other. -/
theorem total_flatMap {α : Type} {c : α → Nat} {f : α → List W} (h : ∀ a, c a ≤ 64 * len (f a)) (l : List α) :
    total c l ≤ 64 * len (l.flatMap f) := by
  have := total_bound (e := 0) 64 h l
  rw [len_flatMap]
  omega

theorem total_flatten {α : Type} {c : α → Nat} {f : α → List W} (h : ∀ a, c a ≤ 64 * len (f a)) (l : List α) :
    total c l ≤ 64 * len (l.map f).flatten := total_flatMap h l

/-- An option whose encoding follows a space. -/
theorem mem_opt {α : Type} {s : S α} {f : α → List W} (h : ∀ a, (s.ser a).size ≤ 64 * len (f a)) (x : Option α) :
    ((opt s).ser x).size ≤ 64 * len (encOpt f x) + 1 := by
  cases x with
  | none => simp [encOpt]
  | some a => have := h a; simp [encOpt]; omega

/-- A list in parentheses, or `NIL`. -/
theorem total_list1OrNil {α : Type} {c : α → Nat} {f : α → List W} (sep : Bytes) (h : ∀ a, c a ≤ 64 * len (f a)) (l : List α) :
    total c l + 128 ≤ 64 * len (list1OrNil sep (l.map f)) := by
  have := total_bound (e := 0) 64 h l
  unfold list1OrNil
  cases l with
  | nil => simp
  | cons a l => simp [len_join] at *; omega

/-! ### Envelopes and body structures -/

theorem mem_address (a : Address) : (address.ser a).size ≤ 64 * len a.enc := by
  have := mem_nstring a.name
  have := mem_nstring a.adl
  have := mem_nstring a.mailbox
  have := mem_nstring a.host
  simp [address, Address.enc]
  omega

theorem mem_addresses (l : List Address) : total (fun a => (address.ser a).size) l + 100 ≤ 64 * len (encAddresses l) := by
  have := total_list1OrNil b!"" mem_address l
  unfold encAddresses
  omega

theorem mem_envelope (e : Envelope) : (envelope.ser e).size ≤ 64 * len e.enc := by
  have := mem_nstring e.date
  have := mem_nstring e.subject
  have := mem_addresses e.from_
  have := mem_addresses e.sender
  have := mem_addresses e.replyTo
  have := mem_addresses e.to_
  have := mem_addresses e.cc
  have := mem_addresses e.bcc
  have := mem_nstring e.inReplyTo
  have := mem_nstring e.messageId
  simp [envelope, Envelope.enc]
  omega

theorem ext_length (l : List BodyExtension) : (BodyExtension.enc.go l).length = l.length := by
  induction l with
  | nil => rfl
  | cons e l ih => simp [BodyExtension.enc.go, ih]

mutual

theorem mem_extension : ∀ e : BodyExtension, (serExtension e).size ≤ 64 * len e.enc
  | .nstring s => by have := mem_nstring s; simp [serExtension, BodyExtension.enc]; omega
  | .number n => by have := showNat_pos n; simp [serExtension, BodyExtension.enc, encNat]; omega
  | .list l => by
    have := mem_extensions l
    simp [serExtension, BodyExtension.enc, len_join]
    omega

theorem mem_extensions : ∀ l : List BodyExtension, sizeItems (serExtensions l) ≤ 64 * total len (BodyExtension.enc.go l)
  | [] => by simp [serExtensions]
  | e :: l => by
    have := mem_extension e
    have := mem_extensions l
    simp [serExtensions, BodyExtension.enc.go, Nat.mul_add]
    omega

end

theorem mem_params_ext (l : List (IString × IString)) : (params.ser l).size + 100 ≤ 64 * len (encParamList l) := by
  have := total_list1OrNil (c := fun p : IString × IString => (istring.ser p.1).size + (istring.ser p.2).size + 1)
    (f := fun p => p.1.enc ++ [.wr b!" "] ++ p.2.enc) b!" " (fun p => by
    have := mem_istring p.1
    have := mem_istring p.2
    simp
    omega) l
  simp [params, encParamList, list1AttrOrNil, Function.comp_def] at *
  omega

theorem mem_location (x : Location) : (location.ser x).size ≤ 64 * len x.enc := by
  have := mem_nstring x.location
  have := total_flatMap (c := fun e => (bodyExtension.ser e).size) (f := fun e => .wr b!" " :: e.enc) (fun e => by
    have := mem_extension e
    simp [bodyExtension]
    omega) x.extensions
  simp [location, Location.enc] at *
  omega

theorem mem_language (x : Language) : (language.ser x).size ≤ 64 * len x.enc := by
  have := mem_opt mem_location x.tail
  have := total_list1OrNil (c := fun a => (istring.ser a).size) (f := IString.enc) b!" " (fun a => by
    have := mem_istring a
    omega) x.language
  simp [language, Language.enc]
  omega

theorem mem_disposition (x : Disposition) : (disposition.ser x).size ≤ 64 * len x.enc := by
  have := mem_opt mem_language x.tail
  obtain ⟨d, t⟩ := x
  match d with
  | none => simp [disposition, Disposition.enc, encDisposition] at *; omega
  | some (s, p) =>
    have := mem_istring s
    have := mem_params_ext p
    simp [disposition, Disposition.enc, encDisposition] at *
    omega

theorem mem_singlePartExt (x : SinglePartExt) : (singlePartExt.ser x).size ≤ 64 * len x.enc := by
  have := mem_opt mem_disposition x.tail
  have := mem_nstring x.md5
  simp [singlePartExt, SinglePartExt.enc]
  omega

theorem mem_multiPartExt (x : MultiPartExt) : (multiPartExt.ser x).size ≤ 64 * len x.enc := by
  have := mem_opt mem_disposition x.tail
  have := mem_params_ext x.parameterList
  simp [multiPartExt, MultiPartExt.enc]
  omega

theorem mem_basicFields (f : BasicFields) : (basicFields.ser f).size ≤ 64 * len f.enc := by
  have := mem_params_ext f.parameterList
  have := mem_nstring f.id
  have := mem_nstring f.description
  have := mem_istring f.contentTransferEncoding
  simp [basicFields, BasicFields.enc]
  omega

mutual

theorem mem_body : ∀ b : BodyStructure, (serBody b).size ≤ 64 * len b.enc
  | .basic f t s x => by
    have := mem_basicFields f
    have := mem_istring t
    have := mem_istring s
    have := mem_opt mem_singlePartExt x
    simp [serBody, body, specificFields, BodyStructure.enc]
    omega
  | .message f e b n x => by
    have := mem_basicFields f
    have := mem_envelope e
    have := mem_body b
    have := mem_opt mem_singlePartExt x
    simp [serBody, body, specificFields, BodyStructure.enc]
    omega
  | .text f s n x => by
    have := mem_basicFields f
    have := mem_istring s
    have := mem_opt mem_singlePartExt x
    simp [serBody, body, specificFields, BodyStructure.enc]
    omega
  | .multi l s x => by
    have := mem_bodies l
    have := mem_istring s
    have := mem_opt mem_multiPartExt x
    simp [serBody, body, specificFields, BodyStructure.enc]
    omega

theorem mem_bodies : ∀ l : List BodyStructure, total (fun a => a.size) (serBodies l) ≤ 64 * len (BodyStructure.enc.go l)
  | [] => by simp [serBodies]
  | b :: l => by
    have := mem_body b
    have := mem_bodies l
    simp [serBodies, BodyStructure.enc.go, Nat.mul_add]
    omega

end

/-! ### Codes and status responses -/

theorem mem_sortAlgorithm (a : SortAlgorithm) : (sortAlgorithm.ser a).size ≤ 64 * a.name.length + 19 := by
  cases a <;> simp [sortAlgorithm, SortAlgorithm.name] <;> omega

theorem mem_capability (c : Capability) : (capability.ser c).size ≤ 64 * len c.enc + 19 := by
  cases c with
  | auth m => have := mem_authMechanism m; simp [AuthMechanism.enc, capability, Capability.enc, Capability.name] at *; omega
  | quotaRes r => have := mem_resource r; simp [capability, Capability.enc, Capability.name] at *; omega
  | thread a => have := mem_threadingAlgorithm a; simp [capability, Capability.enc, Capability.name] at *; omega
  | sort a =>
    cases a with
    | none => simp [capability, Capability.enc, Capability.name]
    | some a => have := mem_sortAlgorithm a; simp [capability, Capability.enc, Capability.name] at *; omega
  | other a => simp [capability, Capability.enc, Capability.name]; omega
  | _ => simp [capability, Capability.enc, Capability.name, utf8Kind, compressionAlgorithm]

theorem mem_capabilities (l : List Capability) :
    total (fun c => (capability.ser c).size) l ≤ 64 * len (join b!" " (l.map Capability.enc)) + 19 :=
  total_join b!" " mem_capability (by omega) (by decide) l

theorem mem_uidElement (e : UidElement) : (uidElement.ser e).size ≤ 64 * len e.enc := by
  cases e with
  | single n => have := showNat_pos n; simp [uidElement, UidElement.enc]; omega
  | range a b => have := showNat_pos a; have := showNat_pos b; simp [uidElement, UidElement.enc]; omega

theorem mem_uidSet (s : List UidElement) : (uidSet.ser s).size ≤ 64 * len (encUidSet s) + 1 := by
  have h1 : ∀ a, (uidElement.ser a).size ≤ 64 * len a.enc + 0 := mem_uidElement
  have := total_join b!"," h1 (by omega) (by decide) s
  simp [uidSet, encUidSet]
  omega

theorem mem_metadataCode (c : MetadataCode) : (metadataCode.ser c).size ≤ 64 * len c.enc := by
  cases c <;> simp [metadataCode, MetadataCode.enc] <;> omega

theorem mem_code [Quirks] [Raw] (c : Code) : (code.ser c).size ≤ 64 * len c.enc + 19 := by
  cases c with
  | badCharset l =>
    have h := total_join b!" " mem_charset (by omega) (by decide) l
    cases l with
    | nil => simp [code, Code.enc, encBadCharset]
    | cons a l => simp [code, Code.enc, encBadCharset] at *; omega
  | capability l => have := mem_capabilities l; simp [code, Code.enc]; omega
  | permanentFlags l =>
    have := total_join b!" " mem_flagPerm (by omega) (by decide) l
    simp [code, Code.enc]
    omega
  | metadata c => have := mem_metadataCode c; simp [code, Code.enc]; omega
  | copyUid v s d => have := mem_uidSet s; have := mem_uidSet d; simp [code, Code.enc]; omega
  | modified s => have := mem_sequenceSet s; simp [code, Code.enc]; omega
  | _ => simp [code, Code.enc] <;> omega

theorem mem_respText [Quirks] [Raw] (c : Option Code) (t : Bytes) :
    ((opt code).ser c).size + (text.ser t).size ≤ 64 * len (encRespText c t) + 2 := by
  cases c with
  | none => simp [encRespText]; omega
  | some c => have := mem_code c; simp [encRespText]; omega

theorem mem_greeting [Quirks] [Raw] (g : Greeting) : (greeting.ser g).size ≤ 64 * len g.enc := by
  have := mem_respText g.code g.text
  have : (greetingKind.ser g.kind).size ≤ 64 := by cases g.kind <;> simp [greetingKind]
  simp [greeting, Greeting.enc] at *
  omega

theorem size_statusKind (k : StatusKind) : (statusKind.ser k).size ≤ 10 := by cases k <;> simp [statusKind]

theorem mem_status [Quirks] [Raw] (s : Status) : (status.ser s).size ≤ 64 * len s.enc := by
  cases s with
  | untagged k c t =>
    have := mem_respText c t
    have := size_statusKind k
    simp [status, statusBody, Status.enc] at *
    omega
  | tagged g k c t =>
    have := mem_respText c t
    have := size_statusKind k
    simp [status, taggedStatus, statusBody, Status.enc] at *
    omega
  | bye c t =>
    have := mem_respText c t
    simp [status, bye, Status.enc] at *
    omega

theorem mem_continueReq [Quirks] [Raw] (r : ContinueReq) : (continueReq.ser r).size ≤ 64 * len r.enc := by
  cases r with
  | basic c t =>
    have := mem_respText c t
    simp [continueReq, continueBasic, ContinueReq.enc] at *
    omega
  | base64 d =>
    have := len_b64 d
    simp [continueReq, ContinueReq.enc] at *
    omega

/-! ### Data responses -/

theorem mem_statusDataItem (i : StatusDataItem) : (statusDataItem.ser i).size ≤ 64 * len i.enc := by
  cases i <;> simp [statusDataItem, StatusDataItem.enc] <;> omega

theorem mem_messageDataItem (i : MessageDataItem) : (messageDataItem.ser i).size ≤ 64 * len i.enc := by
  cases i with
  | body b => have := mem_body b; simp [messageDataItem, bodyStructure, MessageDataItem.enc]; omega
  | bodyStructure b => have := mem_body b; simp [messageDataItem, bodyStructure, MessageDataItem.enc]; omega
  | bodyExt s o d =>
    have := mem_sectionOpt s
    have := mem_nstring d
    have : ((opt u32).ser o).size ≤ 2 := by cases o <;> simp
    simp [messageDataItem, MessageDataItem.enc] at *
    omega
  | envelope e => have := mem_envelope e; simp [messageDataItem, MessageDataItem.enc]; omega
  | flags l =>
    have := total_join b!" " mem_flagFetch (by omega) (by decide) l
    simp [messageDataItem, MessageDataItem.enc]
    omega
  | rfc822 s => have := mem_nstring s; simp [messageDataItem, MessageDataItem.enc]; omega
  | rfc822Header s => have := mem_nstring s; simp [messageDataItem, MessageDataItem.enc]; omega
  | rfc822Text s => have := mem_nstring s; simp [messageDataItem, MessageDataItem.enc]; omega
  | binary s v =>
    have := mem_parts s
    have := mem_nstring8 v
    simp [messageDataItem, MessageDataItem.enc, total_const] at *
    omega
  | binarySize s n =>
    have := mem_parts s
    simp [messageDataItem, MessageDataItem.enc, total_const] at *
    omega
  | _ => simp [messageDataItem, MessageDataItem.enc] <;> omega

theorem mem_numbers (l : List NzU32) : l.length ≤ len (join b!" " (l.map encNat)) := by
  rw [len_join]
  have := total_bound (c := fun _ : Nat => 1) (d := fun n : Nat => len (encNat n)) (e := 0) 1 (fun n => by
    have := showNat_pos n
    simp [encNat]
    omega) l
  simp only [total_const, total_map] at *
  omega

mutual

theorem mem_thread : ∀ t : Thread, (serThread t).size ≤ 64 * len t.enc
  | .members p l => by
    have := mem_threads l
    have := mem_numbers p
    cases l with
    | nil => simp [serThread, serThreads, Thread.enc, encPrefix, total_const] at *; omega
    | cons t l => simp [serThread, Thread.enc, encPrefix, total_const] at *; omega
  | .nested l => by
    have := mem_threads l
    simp [serThread, Thread.enc]
    omega

theorem mem_threads : ∀ l : List Thread, total (fun a => a.size) (serThreads l) ≤ 64 * len (Thread.enc.go l)
  | [] => by simp [serThreads]
  | t :: l => by
    have := mem_thread t
    have := mem_threads l
    simp [serThreads, Thread.enc.go, Nat.mul_add]
    omega

end

theorem mem_delimiter (d : Option UInt8) : ((opt quotedChar).ser d).size ≤ 3 := by cases d <;> simp

theorem mem_namespaceExt (e : NamespaceExt) : (namespaceExt.ser e).size ≤ 64 * len e.enc := by
  have := mem_istring e.key
  have h1 : ∀ a, (istring.ser a).size ≤ 64 * len a.enc + 0 := fun a => by have := mem_istring a; omega
  have := total_join b!" " h1 (by omega) (by decide) e.values
  simp [namespaceExt, NamespaceExt.enc]
  omega

theorem mem_namespace (n : Namespace) : (namespace_.ser n).size ≤ 64 * len n.enc := by
  have := mem_istring n.prefix_
  have := mem_delimiter n.delimiter
  have := total_flatten mem_namespaceExt n.extensions
  simp [namespace_, Namespace.enc] at *
  omega

theorem mem_namespaces (l : List Namespace) :
    total (fun n => (namespace_.ser n).size) l ≤ 64 * len (encNamespaces l) := by
  have := total_flatten mem_namespace l
  cases l with
  | nil => simp
  | cons n l => simp [encNamespaces] at *; omega

theorem mem_quotaGet (q : QuotaGet) : (quotaGet.ser q).size ≤ 64 * len q.enc := by
  have := mem_resource q.resource
  have := showNat_pos q.usage
  simp [quotaGet, QuotaGet.enc] at *
  omega

theorem mem_metadataResponse (r : MetadataResponse) : (metadataResponse.ser r).size ≤ 64 * len r.enc + 50 := by
  cases r with
  | withValues l =>
    have h1 : ∀ a, (entryValue.ser a).size ≤ 64 * len a.enc + 0 := mem_entryValue
    have := total_join b!" " h1 (by omega) (by decide) l
    simp [metadataResponse, MetadataResponse.enc]
    omega
  | withoutValues l =>
    have : total (fun a => (entry.ser a).size) l ≤ 64 * len (join b!" " (l.map AString.enc)) + 18 := mem_astrings l
    simp [metadataResponse, MetadataResponse.enc] at *
    omega

theorem mem_data [Quirks] [Raw] (d : Data) : (data.ser d).size ≤ 64 * len d.enc := by
  cases d with
  | capability l => have := mem_capabilities l; simp [data, Data.enc, Data.encLine]; omega
  | list l d m =>
    have h1 : ∀ a, (flagNameAttribute.ser a).size ≤ 64 * len a.enc + 0 := mem_flagNameAttribute
    have := total_join b!" " h1 (by omega) (by decide) l
    have := mem_delimiter d
    have := mem_mailbox m
    simp [data, Data.enc, Data.encLine] at *
    omega
  | lsub l d m =>
    have h1 : ∀ a, (flagNameAttribute.ser a).size ≤ 64 * len a.enc + 0 := mem_flagNameAttribute
    have := total_join b!" " h1 (by omega) (by decide) l
    have := mem_delimiter d
    have := mem_mailbox m
    simp [data, Data.enc, Data.encLine] at *
    omega
  | status m l =>
    have h1 : ∀ a, (statusDataItem.ser a).size ≤ 64 * len a.enc + 0 := mem_statusDataItem
    have := total_join b!" " h1 (by omega) (by decide) l
    have := mem_mailbox m
    simp [data, Data.enc, Data.encLine] at *
    omega
  | search l m =>
    have := mem_numbers l
    have : ((opt nz64).ser m).size ≤ 2 := by cases m <;> simp
    cases l <;> simp [data, Data.enc, Data.encLine, encNumbers, total_const] at * <;> omega
  | sort l m =>
    have := mem_numbers l
    have : ((opt nz64).ser m).size ≤ 2 := by cases m <;> simp
    cases l <;> simp [data, Data.enc, Data.encLine, encNumbers, total_const] at * <;> omega
  | thread l =>
    have := total_flatten mem_thread l
    cases l with
    | nil => simp [data, Data.enc, Data.encLine, encThreads, thread]
    | cons t l => simp [data, Data.enc, Data.encLine, encThreads, thread] at *; omega
  | flags l =>
    have := total_join b!" " mem_flag (by omega) (by decide) l
    simp [data, Data.enc, Data.encLine]
    omega
  | fetch n l =>
    have h1 : ∀ a, (messageDataItem.ser a).size ≤ 64 * len a.enc + 0 := mem_messageDataItem
    have := total_join b!" " h1 (by omega) (by decide) l
    simp [data, Data.enc, Data.encLine]
    omega
  | enabled l =>
    have := total_flatten (c := fun c => (capabilityEnable.ser c).size) (f := fun c => .wr b!" " :: CapabilityEnable.enc c) (fun c => by
      have := mem_capabilityEnable c
      simp
      omega) l
    simp [data, Data.enc, Data.encLine, encSpaced] at *
    omega
  | quota r l =>
    have h1 : ∀ a, (quotaGet.ser a).size ≤ 64 * len a.enc + 0 := mem_quotaGet
    have := total_join b!" " h1 (by omega) (by decide) l
    have := mem_astring r
    simp [data, Data.enc, Data.encLine]
    omega
  | quotaRoot m l =>
    have := mem_mailbox m
    have := total_flatten (c := fun c => (astring.ser c).size) (f := fun c => .wr b!" " :: AString.enc c) (fun c => by
      have := mem_astring c
      simp
      omega) l
    simp [data, Data.enc, Data.encLine, encSpaced] at *
    omega
  | id_ p => have := mem_idParams p; simp [data, Data.enc, Data.encLine] at *; omega
  | metadata m r =>
    have := mem_mailbox m
    have := mem_metadataResponse r
    simp [data, Data.enc, Data.encLine]
    omega
  | vanished e s =>
    have := mem_sequenceSet s
    cases e <;> simp [data, Data.enc, Data.encLine] <;> omega
  | namespace_ p o s =>
    have := mem_namespaces p
    have := mem_namespaces o
    have := mem_namespaces s
    simp [data, Data.enc, Data.encLine] at *
    omega
  | _ => simp [data, Data.enc, Data.encLine] <;> omega

theorem mem_response [Quirks] [Raw] (r : Response) : (response.ser r).size ≤ 64 * len r.enc + 40 := by
  cases r with
  | continue_ r => have := mem_continueReq r; simp [response, Response.enc]; omega
  | data d => have := mem_data d; simp [response, Response.enc]; omega
  | status s => have := mem_status s; simp [response, Response.enc]; omega

end Imap.Serde
