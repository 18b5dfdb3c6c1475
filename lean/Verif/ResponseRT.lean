import Verif.ResponsePost

/-!
# Round trip of responses and greetings
-/

set_option maxRecDepth 10000

namespace Imap

variable [Quirks]

/-! ### Capabilities -/

omit [Quirks] in
theorem AuthMechanism.name_ofAtom {m : AuthMechanism} (h : m.valid = true) : isAtom m.name = true ∧ AuthMechanism.ofAtom m.name = m := by
  cases m with
  | other a => simpa [AuthMechanism.valid, AuthMechanism.name] using h
  | _ => first | exact ⟨rfl, rfl⟩ | simp [AuthMechanism.valid] at h

omit [Quirks] in
theorem ThreadingAlgorithm.name_ofAtom {m : ThreadingAlgorithm} (h : m.valid = true) :
    isAtom m.name = true ∧ ThreadingAlgorithm.ofAtom m.name = m := by
  cases m with
  | other a => simpa [ThreadingAlgorithm.valid, ThreadingAlgorithm.name] using h
  | _ => exact ⟨rfl, rfl⟩

omit [Quirks] in
theorem SortAlgorithm.name_ofAtom {m : SortAlgorithm} (h : m.valid = true) :
    isAtom m.name = true ∧ SortAlgorithm.ofAtom m.name = m := by
  cases m with
  | other a => simpa [SortAlgorithm.valid, SortAlgorithm.name] using h
  | _ => exact ⟨rfl, rfl⟩

omit [Quirks] in
theorem isAtom_append {a b : Bytes} (ha : isAtom a = true) (hb : isAtom b = true) : isAtom (a ++ b) = true := by
  simp only [isAtom, Bool.and_eq_true, Bool.not_eq_true', List.isEmpty_eq_false_iff, List.all_append] at *
  exact ⟨by simp [ha.1], ha.2, hb.2⟩

omit [Quirks] in
theorem splitOnce_hit (pat r : Bytes) : splitOnce pat (pat ++ r) = some ([], r) := by
  cases pat with
  | nil => cases r <;> simp [splitOnce]
  | cons b pat =>
    rw [List.cons_append, splitOnce, if_pos]
    · simp
    · simp

/-- The name of a capability is an atom, which is converted back. -/
theorem Capability.name_ofAtom {c : Capability} (h : c.valid = true) : isAtom c.name = true ∧ Capability.ofAtom c.name = c := by
  cases c with
  | auth m =>
    have := AuthMechanism.name_ofAtom (m := m) h
    refine ⟨isAtom_append rfl this.1, ?_⟩
    simp [Capability.ofAtom, Capability.name, Capability.fixed, List.lookup, lowerAll, lower, splitOnce, Capability.ofPair, this.1, this.2]
  | quotaRes r =>
    have : isAtom r.name = true ∧ isAtom (lowerAll r.name) = true ∧ Resource.ofAtom (lowerAll r.name) = r := by
      cases r with
      | other a =>
        simp only [Capability.valid, Bool.and_eq_true, decide_eq_true_eq, Resource.valid] at h
        simp [Resource.name, h]
      | _ => exact ⟨rfl, rfl, rfl⟩
    refine ⟨isAtom_append rfl this.1, ?_⟩
    have h1 := splitOnce_hit b!"res-" (lowerAll r.name)
    have h2 : lowerAll (b!"RES-" ++ r.name) = b!"res-" ++ lowerAll r.name := rfl
    have h3 : Capability.ofPair b!"QUOTA" (b!"RES-" ++ r.name) = some (.quotaRes r) := by
      simp only [Capability.ofPair]
      rw [if_neg (by decide), if_neg (by decide), if_pos (by decide), h2, h1]
      simp [this]
    have h4 : splitOnce b!"=" (b!"QUOTA=RES-" ++ r.name) = some (b!"QUOTA", b!"RES-" ++ r.name) := rfl
    have h5 : Capability.fixed.lookup (lowerAll (b!"QUOTA=RES-" ++ r.name)) = none := by
      simp [Capability.fixed, List.lookup, lowerAll, lower]
    simp only [Capability.ofAtom, Capability.name, h5, h4, h3, Option.getD_some, Option.filter_none]
  | sort a =>
    cases a with
    | none => exact ⟨rfl, rfl⟩
    | some a =>
      have := SortAlgorithm.name_ofAtom (m := a) h
      refine ⟨isAtom_append rfl this.1, ?_⟩
      simp [Capability.ofAtom, Capability.name, Capability.fixed, List.lookup, lowerAll, lower, splitOnce, Capability.ofPair, this.1, this.2]
  | thread a =>
    have := ThreadingAlgorithm.name_ofAtom (m := a) h
    refine ⟨isAtom_append rfl this.1, ?_⟩
    simp [Capability.ofAtom, Capability.name, Capability.fixed, List.lookup, lowerAll, lower, splitOnce, Capability.ofPair, this.1, this.2]
  | namespace_ => simp [Capability.valid] at h
  | other a => simpa [Capability.valid, Capability.name] using h
  | _ =>
    refine ⟨rfl, ?_⟩
    simp only [Capability.valid, Capability.present] at h
    first
      | rfl
      | simp [Capability.ofAtom, Capability.name, Capability.fixed, List.lookup, lowerAll, lower, Option.filter, Capability.present, h]

theorem rt_capability {c : Capability} {r : Bytes} (h : c.valid = true) (hr : Stops isAtomChar r = true) :
    capability (bytes c.enc ++ r) = .ok r c := by
  have := Capability.name_ofAtom h
  simp [capability, Capability.enc, rt_atom this.1 hr, this.2]

theorem rt_capabilityData {l : List Capability} {r : Bytes} (hl : l ≠ []) (h : ∀ c ∈ l, c.valid = true)
    (hr : Stops (fun b => isAtomChar b || b == 32) r = true) :
    capabilityData (b!"CAPABILITY " ++ (bytes (join b!" " (l.map Capability.enc)) ++ r)) = .ok r l := by
  have hr1 : Stops isAtomChar r = true := Stops.mono hr (by intro b; simp; tauto)
  have hr2 : Stops (· == 32) r = true := Stops.mono hr (by intro b; simp)
  have := sepList1_sp (p := capability) (e := Capability.enc) (g := id) (F := fun r => Stops isAtomChar r = true)
    (rest := r) hl (fun v hv r hr => rt_capability (h v hv) hr) (fun _ => rfl) hr1 hr2
  have hs : opt sp r = .ok r none := by
    obtain ⟨b, bs, rfl, hb⟩ := exists_of_stops hr2
    refine opt_error ?_
    simp at hb
    simp [sp, char, hb]
  unfold capabilityData
  split <;> simp [tagNC, this, hs]

/-! ### Codes -/

omit [Quirks] in
theorem rt_uidSet {s : List UidElement} {r : Bytes} (h : isUidSet s = true) (hr : Stops setStop r = true) :
    uidSet (bytes (encUidSet s) ++ r) = .ok r s := by
  simp only [isUidSet, Bool.and_eq_true, Bool.not_eq_true', List.isEmpty_eq_false_iff, List.all_eq_true] at h
  have := sepList1_join (sep := tag b!",") (p := alt [uidRange, .single <$> nzNumber])
    (e := UidElement.enc) (g := id) (F := fun r => Stops seqStop' r = true) (s := b!",") (rest := r) h.1
    (fun r => by simp [tag]) (by simp) (fun q hq r hr => by
      have hr1 : Stops isDigit r = true := Stops.mono hr (by intro b; simp [seqStop']; tauto)
      have hv := h.2 q hq
      cases q with
      | single n =>
        have hr2 : tag b!":" r = .error := by
          obtain ⟨b, bs, rfl, hb⟩ := exists_of_stops hr
          simp [seqStop'] at hb
          simp [tag, Ne.symm hb.2]
        have := nonZero_of_wf hv
        simp [orElse, uidRange, UidElement.enc, rt_nzNumber this.1 this.2 hr1, hr2]
      | range a b =>
        simp only [UidElement.valid, Bool.and_eq_true] at hv
        have h1 := nonZero_of_wf hv.1
        have h2 := nonZero_of_wf hv.2
        have e1 := rt_nzNumber (r := 58 :: (showNat b ++ r)) h1.1 h1.2 rfl
        simp [orElse, uidRange, UidElement.enc, e1, rt_nzNumber h2.1 h2.2 hr1, tag]) (fun r => by rfl)
    (Stops.mono hr (by intro b; simp [setStop, seqStop']; tauto)) (by
      obtain ⟨b, bs, rfl, hb⟩ := exists_of_stops hr
      simp [setStop] at hb
      simp [tag, Ne.symm hb.2])
  simpa [uidSet, encUidSet] using this

omit [Quirks] in
theorem rt_metadataCode {c : MetadataCode} {r : Bytes} (h : c.valid = true) (hr : Stops isDigit r = true) :
    metadataCode (bytes c.enc ++ r) = .ok r c := by
  cases c with
  | longEntries n => simp [metadataCode, MetadataCode.enc, orElse, tagNC, rt_number (of_decide_eq_true h) hr]
  | maxSize n => simp [metadataCode, MetadataCode.enc, orElse, tagNC, lower, rt_number (of_decide_eq_true h) hr]
  | _ => rfl

omit [Quirks] in
theorem rt_flagPermList {l : List FlagPerm} {r : Bytes} (h : l.all FlagPerm.valid = true) :
    flagPermList (40 :: (bytes (join b!" " (l.map FlagPerm.enc)) ++ 41 :: r)) = .ok r l := by
  cases l with
  | nil => rfl
  | cons a l =>
    have := sepList1_sp (p := flagPerm) (e := FlagPerm.enc) (g := id) (F := fun r => Stops isAtomChar r = true)
      (rest := 41 :: r) (l := a :: l) (by simp) (fun v hv r hr => rt_flagPerm (List.all_eq_true.1 h v hv) hr) (fun _ => rfl) rfl rfl
    simp only [flagPermList, P.bind_apply, tag, Res.andThen_ok, if_true]
    rw [opt_ok this]
    simp [tag]

omit [Quirks] in
theorem rt_charsetList {l : List Charset} {r : Bytes} (hl : l ≠ []) (h : ∀ c ∈ l, c.valid = true) :
    charsetList (32 :: 40 :: (bytes (join b!" " (l.map Charset.enc)) ++ 41 :: r)) = .ok r l := by
  have := sepList1_sp (p := charset) (e := Charset.enc) (g := id) (F := fun r => Stops isAtomChar r = true)
    (rest := 41 :: r) hl (fun v hv r hr => rt_charset (h v hv) hr) (fun _ => rfl) rfl rfl
  simp [charsetList, tag, this]

/-- The round trip of the known codes. -/
theorem rt_respTextCode {c : Code} {t r : Bytes} (h : c.valid t = true) (ho : ∀ bs, c ≠ .other bs) :
    respTextCode (bytes c.enc ++ 93 :: r) = .ok (93 :: r) c.norm := by
  rw [respTextCode]
  cases c with
  | badCharset l =>
    cases l with
    | nil => rfl
    | cons a l =>
      alt_at 1
      have := rt_charsetList (r := 93 :: r) (l := a :: l) (by simp) (List.all_eq_true.1 h)
      have e : bytes (Code.badCharset (a :: l)).enc = b!"BADCHARSET (" ++ (bytes (join b!" " ((a :: l).map Charset.enc)) ++ b!")") := by
        simp [Code.enc, encBadCharset]
      rw [e]
      simp only [List.cons_append, List.nil_append, List.append_assoc, P.bind_apply, tagNC, if_true, Res.andThen_ok]
      rw [opt_ok this]
      rfl
  | capability l =>
    simp only [Code.valid, Bool.and_eq_true, Bool.not_eq_true', List.isEmpty_eq_false_iff] at h
    have := rt_capabilityData (r := 93 :: r) h.1 (List.all_eq_true.1 h.2) rfl
    simp only [List.cons_append, List.nil_append] at this
    alt_at 2
    simp [Code.enc, Code.norm, this]
  | permanentFlags l =>
    have := rt_flagPermList (r := 93 :: r) (l := l) h
    alt_at 4
    simp [Code.enc, Code.norm, tagNC, this]
  | uidNext n =>
    have := nonZero_of_wf h
    alt_at 8
    simp [Code.enc, Code.norm, tagNC, rt_nzNumber (r := 93 :: r) this.1 this.2 rfl]
  | uidValidity n =>
    have := nonZero_of_wf h
    alt_at 9
    simp [Code.enc, Code.norm, tagNC, rt_nzNumber (r := 93 :: r) this.1 this.2 rfl]
  | unseen n =>
    have := nonZero_of_wf h
    alt_at 10
    simp [Code.enc, Code.norm, tagNC, rt_nzNumber (r := 93 :: r) this.1 this.2 rfl]
  | referral u => simp [Code.valid] at h
  | metadata c =>
    simp only [Code.valid, Bool.and_eq_true] at h
    have := rt_metadataCode (r := 93 :: r) (c := c) h.2 rfl
    alt_at 14
    rw [gate_on h.1]
    simp [Code.enc, Code.norm, tagNC, this]
  | appendUid v u =>
    simp only [Code.valid, Bool.and_eq_true] at h
    have h1 := nonZero_of_wf h.1
    have h2 := nonZero_of_wf h.2
    have e1 := rt_nzNumber (r := 32 :: (showNat u ++ 93 :: r)) h1.1 h1.2 rfl
    alt_at 16
    simp [Code.enc, Code.norm, respCodeApnd, tagNC, e1, sp_cons, rt_nzNumber (r := 93 :: r) h2.1 h2.2 rfl]
  | copyUid v s d =>
    simp only [Code.valid, Bool.and_eq_true] at h
    have h1 := nonZero_of_wf h.1.1
    have e1 := fun x => rt_nzNumber (r := 32 :: x) h1.1 h1.2 rfl
    have e2 := fun x => rt_uidSet (r := 32 :: x) h.1.2 rfl
    have e3 := rt_uidSet (r := 93 :: r) h.2 rfl
    alt_at 17
    simp [Code.enc, Code.norm, respCodeCopy, tagNC, e1, sp_cons, e2, e3]
  | highestModSeq n =>
    simp only [Code.valid, Bool.and_eq_true] at h
    have := isNonZeroU64_iff.1 h.2
    alt_at 19
    rw [gate_on h.1]
    alt_at 0
    simp [Code.enc, Code.norm, tagNC, rt_modSequenceValue (r := 93 :: r) this.1 this.2 rfl]
  | modified s =>
    simp only [Code.valid, Bool.and_eq_true] at h
    have := rt_sequenceSet (r := 93 :: r) (s := s) h.2 rfl
    alt_at 19
    rw [gate_on h.1]
    alt_at 2
    simp [Code.enc, Code.norm, tagNC, this]
  | noModSeq =>
    have h : Quirks.extCondstoreQresync = true := h
    alt_at 19
    rw [gate_on h]
    rfl
  | closed =>
    have h : Quirks.extCondstoreQresync = true := h
    alt_at 19
    rw [gate_on h]
    rfl
  | other bs => exact absurd rfl (ho bs)
  | _ => rfl

/-! ### Code and text -/

theorem rt_textAfterCode {t r : Bytes} (h : isText t = true) (hr : Stops isTextChar r = true) :
    textAfterCode (32 :: (t ++ r)) = .ok r t := by
  have := rt_text h hr
  unfold textAfterCode
  split <;> simp [orElse, sp_cons, this]

theorem rt_respText {c : Option Code} {t r : Bytes} (h : validRespText c t = true) :
    respText (bytes (encRespText c t) ++ 13 :: 10 :: r) = .ok (13 :: 10 :: r) (c.map Code.norm, t) := by
  cases c with
  | none =>
    simp only [validRespText, Bool.and_eq_true] at h
    have e := rt_text (r := 13 :: 10 :: r) h.1 rfl
    have : t.head? ≠ some 91 := by simpa using h.2
    have ht := h.1
    cases t with
    | nil => simp [isText] at ht
    | cons b t =>
      simp at this
      have e2 : peek (opt (tag b!"[")) (b :: t ++ 13 :: 10 :: r) = .ok (b :: t ++ 13 :: 10 :: r) none := by
        simp [peek, opt, tag, Ne.symm this]
      simp only [encRespText, bytes_wr, bytes_nil, List.append_nil, respText, P.bind_apply, e2, Res.andThen_ok]
      simp only [Option.isSome_none, Bool.false_eq_true, if_false, respTextPlain, P.bind_apply, e]
      rfl
  | some c =>
    simp only [validRespText, Bool.and_eq_true] at h
    have e1 := rt_textAfterCode (r := 13 :: 10 :: r) h.1 rfl
    have key : alt [codeKnown, codeOther] (bytes c.enc ++ 93 :: 32 :: (t ++ 13 :: 10 :: r)) =
        .ok (32 :: (t ++ 13 :: 10 :: r)) c.norm := by
      by_cases ho : ∃ bs, c = .other bs
      · obtain ⟨bs, rfl⟩ := ho
        simp only [Code.valid, Bool.and_eq_true] at h
        have hk : codeKnown (bs ++ b!"] " ++ t ++ b!"\r\n") = .error := by
          have := h.2.2
          cases hc : codeKnown (bs ++ b!"] " ++ t ++ b!"\r\n") <;> rw [hc] at this <;> simp [Res.isError] at this ⊢
        have hk' := (inferInstance : Nice codeKnown).err hk r
        have e2 := takeWhile_append (r := 93 :: 32 :: (t ++ 13 :: 10 :: r)) h.2.1 rfl
        simp only [List.append_assoc, List.cons_append, List.nil_append] at hk'
        simp [orElse, Code.enc, hk', codeOther, e2, tag, Code.norm]
      · have e2 := rt_respTextCode (r := 32 :: (t ++ 13 :: 10 :: r)) h.2 (fun bs e => ho ⟨bs, e⟩)
        exact alt_hit (by simp [codeKnown, e2, tag])
    have e3 : bytes (encRespText (some c) t) ++ 13 :: 10 :: r = 91 :: (bytes c.enc ++ 93 :: 32 :: (t ++ 13 :: 10 :: r)) := by
      simp [encRespText]
    have e2 : ∀ x, peek (opt (tag b!"[")) (91 :: x) = .ok (91 :: x) (some ()) := by
      intro x
      simp [peek, opt, tag]
    rw [e3]
    simp only [respText, P.bind_apply, e2, Res.andThen_ok, Option.isSome_some, if_true, respTextCoded, tag]
    rw [key]
    simp [e1]

/-- The round trip of greetings. -/
theorem rt_greeting {g : Greeting} {r : Bytes} (h : g.valid = true) : greeting (bytes g.enc ++ r) = .ok r g.norm := by
  obtain ⟨k, c, t⟩ := g
  have e := rt_respText (r := r) h
  have e2 := rt_crlf r
  cases k <;>
  simp [greeting, Greeting.enc, GreetingKind.name, Greeting.norm, tag, tagNC, lower, orElse, respCondAuth, respCondBye, condAuthKind, value, e, e2]

theorem rt_respCondState {k : StatusKind} {c : Option Code} {t r : Bytes} (h : validRespText c t = true) :
    respCondState (k.name ++ 32 :: (bytes (encRespText c t) ++ 13 :: 10 :: r)) = .ok (13 :: 10 :: r) (k, c.map Code.norm, t) := by
  have e := rt_respText (r := r) h
  cases k <;> simp [respCondState, StatusKind.name, condStateKind, tagNC, lower, orElse, value, e]

theorem rt_respCondBye {c : Option Code} {t r : Bytes} (h : validRespText c t = true) :
    respCondBye (b!"BYE" ++ 32 :: (bytes (encRespText c t) ++ 13 :: 10 :: r)) = .ok (13 :: 10 :: r) (c.map Code.norm, t) := by
  have e := rt_respText (r := r) h
  simp [respCondBye, tagNC, e]

/-! ### Command continuation requests -/

omit [Quirks] in
theorem b64Decode_bracket (s : Bytes) : b64Decode (91 :: s) = none := by
  rcases s with _ | ⟨a, _ | ⟨b, _ | ⟨c, s⟩⟩⟩ <;> simp [b64Decode, b64Val]

omit [Quirks] in
theorem splitOnce_isSome (pat : Bytes) : ∀ x y : Bytes, (splitOnce pat (x ++ (pat ++ y))).isSome = true
  | [], y => by rw [List.nil_append, splitOnce_hit]; rfl
  | b :: x, y => by
    rw [List.cons_append, splitOnce]
    split
    · rfl
    · simpa using splitOnce_isSome pat x y

/-- A line that starts with a bracket is not base64. -/
theorem continueBase64_bracket (x r : Bytes) : continueBase64 (91 :: (x ++ 13 :: 10 :: r)) = .error := by
  have key : ∀ (pat p y : Bytes) (f : Bytes → Option Bytes), pat.head? ≠ some 91 → pat ≠ [] → (∀ l, f (91 :: l) = none) →
      mapRes (takeUntil pat) f (91 :: (p ++ (pat ++ y))) = .error := by
    intro pat p y f h1 h2 h3
    have hs := splitOnce_isSome pat p y
    cases pat with
    | nil => exact absurd rfl h2
    | cons b pat =>
      simp at h1
      cases hq : splitOnce (b :: pat) (p ++ (b :: pat ++ y)) with
      | none => rw [hq] at hs; simp at hs
      | some v =>
        have hq' : splitOnce (b :: pat) (91 :: (p ++ (b :: pat ++ y))) = some (91 :: v.1, v.2) := by
          rw [splitOnce, if_neg (by simp [h1]), hq]
          rfl
        simp only [mapRes, takeUntil, hq', h3]
  unfold continueBase64
  split
  · have := key b!"\n" (x ++ [13]) r (fun s => b64Decode (stripCr s)) (by simp) (by simp) (by
      intro l
      unfold stripCr
      split
      · next h =>
        cases l with
        | nil => simp at h
        | cons a l => simp [List.dropLast, b64Decode_bracket]
      · exact b64Decode_bracket l)
    simpa using this
  · simpa using key b!"\r\n" x r b64Decode (by simp) (by simp) b64Decode_bracket

omit [Quirks] in
theorem b64Char_text {n : Nat} (h : n < 64) : isTextChar (b64Char n) = true := by
  have : ∀ m : Fin 64, isTextChar (b64Char m) = true := by decide
  exact this ⟨n, h⟩

omit [Quirks] in
theorem b64Encode_text (d : Bytes) : (b64Encode d).all isTextChar = true := by
  fun_induction b64Encode d with
  | case1 => rfl
  | case2 a =>
    have := a.toNat_lt
    simp [b64Char_text (n := a.toNat / 4) (by omega), b64Char_text (n := a.toNat % 4 * 16) (by omega)]
    decide
  | case3 a b =>
    have := a.toNat_lt
    have := b.toNat_lt
    simp [b64Char_text (n := a.toNat / 4) (by omega), b64Char_text (n := a.toNat % 4 * 16 + b.toNat / 16) (by omega),
      b64Char_text (n := b.toNat % 16 * 4) (by omega)]
    decide
  | case4 a b c r ih =>
    have := a.toNat_lt
    have := b.toNat_lt
    have := c.toNat_lt
    simp only [List.all_cons, ih, b64Char_text (n := a.toNat / 4) (by omega), b64Char_text (n := a.toNat % 4 * 16 + b.toNat / 16) (by omega),
      b64Char_text (n := b.toNat % 16 * 4 + c.toNat / 64) (by omega), b64Char_text (n := c.toNat % 64) (by omega), Bool.and_self]

/-- The round trip of command continuation requests. -/
theorem rt_continueReq {c : ContinueReq} {r : Bytes} (h : c.valid = true) : continueReq (bytes c.enc ++ r) = .ok r c.norm := by
  have hcrlf := rt_crlf r
  cases c with
  | base64 d =>
    have e := continueBase64_line (r := r) (e := .crlf) (b64Encode_text d) (fun _ => rfl)
    rw [b64_decode_encode] at e
    have hc : crlf (if Quirks.crlfRelaxed = true then 10 :: r else 13 :: 10 :: r) = .ok r () := by
      split
      · next hq => simp [crlf, hq, opt, char]
      · exact hcrlf
    refine mapRes_ok (v := .base64 d) ?_ rfl
    simp only [Frag.endingBytes, List.append_assoc, List.cons_append, List.nil_append] at e
    simp [continueInner, ContinueReq.enc, tag, orElse, e, hc]
  | basic c t =>
    simp only [ContinueReq.valid, Bool.and_eq_true] at h
    have e := rt_respText (r := r) h.1
    refine mapRes_ok (v := .basic (c.map Code.norm, t)) ?_ ?_
    · have hb : continueBase64 (bytes (encRespText c t) ++ 13 :: 10 :: r) = .error := by
        cases c with
        | some c =>
          have := continueBase64_bracket (bytes c.enc ++ b!"] " ++ t) r
          simpa [encRespText] using this
        | none =>
          have hv := h.1
          simp only [validRespText, Bool.and_eq_true, isText] at hv
          have e := continueBase64_line (r := r) (e := .crlf) hv.1.2 (fun _ => rfl)
          have hd : b64Decode t = none := by
            have := h.2
            unfold ContinueReq.ofBasic at this
            cases hd : b64Decode t with
            | none => rfl
            | some d => simp [hd] at this
          rw [hd] at e
          simpa [encRespText, Frag.endingBytes] using e
      simp only [ContinueReq.enc, continueInner, P.bind_apply, bytes_append, bytes_wr, bytes_nil, List.append_assoc, List.cons_append,
        List.nil_append, tag, if_true, Res.andThen_ok, alt_cons, orElse, P.map_apply, hb, Res.andThen_error, e]
      simp [hcrlf]
    · have := h.2
      unfold ContinueReq.ofBasic at this
      simp only [ContinueEither.toReq, ContinueReq.ofBasic, Option.isNone_map, ContinueReq.norm]
      split at this
      · simp at this
      · next h1 =>
        rw [if_neg h1]
        split at this
        · simp at this
        · next h2 => rw [if_neg h2]

end Imap
