import Verif.BodyLemmas
/-
Round trips of envelopes and body structures.
-/
set_option maxRecDepth 10000

namespace Imap

variable {α β : Type}

section
variable [q : Quirks]

theorem rt_addressParen {a : Address} {r : Bytes} (h : a.valid = true) : addressParen (bytes a.enc ++ r) = .ok r a := by
  simp only [Address.valid, Bool.and_eq_true] at h
  obtain ⟨⟨⟨h1, h2⟩, h3⟩, h4⟩ := h
  simp [addressParen, Address.enc, tag, sp_cons, rt_nstring h1, rt_nstring h2, rt_nstring h3, rt_nstring h4]

theorem rt_address {a : Address} {r : Bytes} (h : a.valid = true) : address (bytes a.enc ++ r) = .ok r a := by
  have := rt_addressParen (r := r) h
  unfold address
  split
  · have h2 : (many0 sp : P (List Unit)) (bytes a.enc ++ r) = .ok (bytes a.enc ++ r) [] := many0_stop rfl
    simp only [P.bind_apply, h2, Res.andThen_ok, this]
  · exact this

theorem address_stop {r : Bytes} : address (41 :: r) = .error := by
  unfold address
  split
  · have h2 : (many0 sp : P (List Unit)) (41 :: r) = .ok (41 :: r) [] := many0_stop rfl
    simp only [P.bind_apply, h2, Res.andThen_ok]
    rfl
  · rfl

theorem rt_envAddresses {l : List Address} {r : Bytes} (h : ∀ a ∈ l, a.valid = true) :
    envAddresses (bytes (encAddresses l) ++ r) = .ok r l := by
  cases l with
  | nil => rfl
  | cons a l =>
    have h2 : many0 address ((l.flatMap fun x => bytes x.enc) ++ 41 :: r) = .ok (41 :: r) (l.map id) := by
      refine many0_concat (F := fun _ => True) l (fun v hv r _ => rt_address (h v (by simp [hv]))) ?_ (fun _ _ _ => trivial) trivial
        address_stop
      intro v _
      simp [Address.enc]
    rw [envAddresses]
    refine alt_hit ?_
    have h3 := rt_address (r := (l.flatMap fun x => bytes x.enc) ++ 41 :: r) (h a (by simp))
    have h4 : bytes (encAddresses (a :: l)) ++ r = 40 :: (bytes a.enc ++ ((l.flatMap fun x => bytes x.enc) ++ 41 :: r)) := by
      simp [encAddresses, list1OrNil, bytes_join, List.flatMap_map]
    rw [h4]
    simp [tag, many1, h3, h2]

theorem rt_envelope {e : Envelope} {r : Bytes} (h : e.valid = true) : envelope (bytes e.enc ++ r) = .ok r e := by
  simp only [Envelope.valid, Bool.and_eq_true, List.all_eq_true] at h
  obtain ⟨⟨⟨⟨⟨⟨⟨⟨⟨h1, h2⟩, h3⟩, h4⟩, h5⟩, h6⟩, h7⟩, h8⟩, h9⟩, h10⟩ := h
  simp [envelope, Envelope.enc, tag, sp_cons, rt_nstring h1, rt_nstring h2, rt_nstring h9, rt_nstring h10,
    rt_envAddresses h3, rt_envAddresses h4, rt_envAddresses h5, rt_envAddresses h6, rt_envAddresses h7, rt_envAddresses h8]

/-! ### Extensions -/

theorem string_error {b : UInt8} {t : Bytes} (h34 : b ≠ 34) (h123 : b ≠ 123) : string (b :: t) = .error := by
  have : ¬ 123 = b := fun e => h123 e.symm
  simp [string, orElse, quoted, quotedUtf8, gate, literal, literalHdr, dquote, char, tag, h34, this]

theorem nstring_error {b : UInt8} {t : Bytes} (h34 : b ≠ 34) (h123 : b ≠ 123) (hN : lower b ≠ 110) : nstring (b :: t) = .error := by
  have : ¬ lower 78 = lower b := fun e => hN (e ▸ rfl)
  simp [nstring, orElse, string_error h34 h123, nil, value, tagNC, this]

theorem nstring_digit {b : UInt8} {t : Bytes} (h : isDigit b = true) : nstring (b :: t) = .error := by
  have key : ∀ b, isDigit b = true → b ≠ 34 ∧ b ≠ 123 ∧ lower b ≠ 110 := forall_byte (by decide)
  exact nstring_error (key b h).1 (key b h).2.1 (key b h).2.2

theorem number_error {b : UInt8} {t : Bytes} (h : isDigit b = false) : number (b :: t) = .error := by
  simp [number, mapRes, takeWhile1, h]

theorem rt_bodyExtension {n : Nat} {e : BodyExtension} {r : Bytes} (h : e.valid = true) (hd : e.depth ≤ n) (hr : Stops isDigit r = true) :
    bodyExtension n (bytes e.enc ++ r) = .ok r e := by
  induction n generalizing e r with
  | zero => cases e <;> simp [BodyExtension.depth] at hd
  | succ n ih =>
    rw [bodyExtension]
    cases e with
    | nstring s =>
      refine alt_hit ?_
      simp [BodyExtension.enc, rt_nstring (s := s) h (Stops.ne_nil hr)]
    | number k =>
      obtain ⟨b, bs, e2, hb⟩ := showNat_head k
      have h1 := rt_number (n := k) (by simpa [BodyExtension.valid] using h) hr
      refine Eq.trans (alt_skip ?_) (alt_hit ?_)
      · simp [BodyExtension.enc, encNat, e2, nstring_digit hb]
      · simp [BodyExtension.enc, encNat, h1]
    | list l =>
      simp only [BodyExtension.valid, BodyExtension.depth, Bool.and_eq_true, Nat.add_le_add_iff_right, BodyExtension.valid_go,
        BodyExtension.depth_go] at h hd
      have h1 := sepList1_sp (p := bodyExtension n) (e := BodyExtension.enc) (g := id) (F := fun r => Stops isDigit r = true)
        (rest := 41 :: r) (l := l) (by simpa using h.1) (fun v hv r hr => ih (h.2 v hv) (hd v hv) hr) (fun _ => rfl) rfl rfl
      refine Eq.trans (alt_skip ?_) (Eq.trans (alt_skip ?_) (alt_hit ?_))
      · simp [BodyExtension.enc, nstring_error (b := 40) (by decide) (by decide) (by decide)]
      · simp [BodyExtension.enc, number_error (b := 40) (by decide)]
      · simp [BodyExtension.enc, BodyExtension.enc_go, tag, h1]

theorem rt_opt {p : P α} {enc : α → List W} {o : Option α} {v : α → Bool} {r : Bytes} (h : isOpt v o = true)
    (hp : ∀ a, v a = true → p (32 :: (bytes (enc a) ++ r)) = .ok r a) (he : p r = .error) :
    opt p (bytes (encOpt enc o) ++ r) = .ok r o := by
  cases o with
  | none => simpa [encOpt] using opt_error he
  | some a => simpa [encOpt] using opt_ok (hp a h)

theorem rt_bodyFldParam {l : Params} {r : Bytes} (h : isParams l = true) : bodyFldParam (bytes (encParamList l) ++ r) = .ok r l := by
  rw [isParams_iff] at h
  rw [bodyFldParam]
  cases l with
  | nil => rfl
  | cons x l =>
    refine alt_hit ?_
    have h1 := sepList0_sp (p := fldParam) (e := fun x : IString × IString => x.1.enc ++ [.wr b!" "] ++ x.2.enc) (g := id)
      (F := fun r => r ≠ []) (rest := 41 :: r) (l := x :: l) (fun v hv r hr => by
        obtain ⟨h1, h2⟩ := h v hv
        simp [fldParam, sp_cons, rt_string h1, rt_string h2 hr]) (by simp) (by simp) rfl (by
        simp [fldParam, string_error (b := 41) (by decide) (by decide)])
    simp only [List.map_cons] at h1
    simp [encParamList, list1AttrOrNil, list1OrNil, tag, Function.comp_def]
    simp at h1
    simp [h1, tag]

theorem rt_bodyFldEnc {s : IString} {r : Bytes} (h : s.valid = true) (hr : r ≠ []) : bodyFldEnc (bytes s.enc ++ r) = .ok r s := by
  unfold bodyFldEnc
  split
  · have := rt_nstring (s := some s) (r := r) h hr
    simp only [encNString] at this
    simp [this]
  · exact rt_string h hr

theorem rt_bodyFldOctets {n : Nat} {r : Bytes} (h : n < 4294967296) (hr : Stops isDigit r = true) :
    bodyFldOctets (showNat n ++ r) = .ok r n := by
  have := rt_number h hr
  unfold bodyFldOctets
  split
  · exact alt_hit this
  · exact this

theorem rt_bodyFields {f : BasicFields} {r : Bytes} (h : f.valid = true) (hr : Stops isDigit r = true) :
    bodyFields (bytes f.enc ++ r) = .ok r f := by
  simp only [BasicFields.valid, Bool.and_eq_true, decide_eq_true_eq] at h
  obtain ⟨⟨⟨⟨h1, h2⟩, h3⟩, h4⟩, h5⟩ := h
  simp [bodyFields, BasicFields.enc, sp_cons, rt_bodyFldParam h1, rt_nstring h2, rt_nstring h3, rt_bodyFldEnc h4, rt_bodyFldOctets h5 hr]

theorem rt_extLocation {x : Location} {r : Bytes} (h : x.valid = true) :
    extLocation (32 :: (bytes x.enc ++ 41 :: r)) = .ok (41 :: r) x := by
  simp only [Location.valid, Bool.and_eq_true, List.all_eq_true, decide_eq_true_eq] at h
  obtain ⟨s, l⟩ := x
  have h1 : many0 (do sp; bodyExtension 8 : P BodyExtension) ((l.flatMap fun e => 32 :: bytes e.enc) ++ 41 :: r) = .ok (41 :: r) (l.map id) := by
    refine many0_concat (F := fun r => Stops isDigit r = true) l (fun e he r hr => ?_) (by simp) (fun _ _ _ => rfl) rfl rfl
    simp [sp_cons, rt_bodyExtension (h.2 e he).1 (h.2 e he).2 hr]
  have h2 := rt_nstring (r := (l.flatMap fun e => 32 :: bytes e.enc) ++ 41 :: r) h.1 (by simp)
  simp [extLocation, Location.enc, sp_cons, bytes_flatMap, h2, h1]

theorem rt_bodyFldLang {l : List IString} {r : Bytes} (h : ∀ s ∈ l, s.valid = true) (hr : r ≠ []) :
    bodyFldLang (bytes (list1OrNil b!" " (l.map IString.enc)) ++ r) = .ok r l := by
  rw [bodyFldLang]
  cases l with
  | nil =>
    refine alt_hit ?_
    have := rt_nstring (s := none) (r := r) rfl hr
    simp only [encNString] at this
    simp only [List.map_nil, list1OrNil, P.map_apply, this]
    rfl
  | cons x l =>
    have h1 := sepList1_sp (p := string) (e := IString.enc) (g := id)
      (F := fun r => r ≠ []) (rest := 41 :: r) (l := x :: l) (by simp) (fun v hv r hr => rt_string (h v hv) hr) (by simp) (by simp) rfl
    simp only [List.map_cons] at h1
    refine Eq.trans (alt_skip ?_) (alt_hit ?_)
    · simp [list1OrNil, nstring_error (b := 40) (by decide) (by decide) (by decide)]
    · simp [list1OrNil, tag, h1]

theorem rt_extLanguage {x : Language} {r : Bytes} (h : x.valid = true) :
    extLanguage (32 :: (bytes x.enc ++ 41 :: r)) = .ok (41 :: r) x := by
  simp only [Language.valid, Bool.and_eq_true, List.all_eq_true] at h
  obtain ⟨l, t⟩ := x
  have h1 := rt_opt (p := extLocation) (enc := Location.enc) (r := 41 :: r) h.2 (fun a ha => rt_extLocation ha) rfl
  have h2 := rt_bodyFldLang (r := bytes (encOpt Location.enc t) ++ 41 :: r) h.1 (by simp)
  simp [extLanguage, Language.enc, sp_cons, h2, h1]

theorem rt_bodyFldDsp {x : Option (IString × Params)} {r : Bytes} (h : isOpt (fun d => d.1.valid && isParams d.2) x = true) :
    bodyFldDsp (bytes (encDisposition x) ++ r) = .ok r x := by
  rcases x with _ | ⟨s, ps⟩
  · rfl
  · simp only [isOpt, Bool.and_eq_true] at h
    rw [bodyFldDsp]
    refine alt_hit ?_
    simp [encDisposition, tag, sp_cons, rt_string h.1, rt_bodyFldParam h.2]

theorem rt_extDisposition {x : Disposition} {r : Bytes} (h : x.valid = true) :
    extDisposition (32 :: (bytes x.enc ++ 41 :: r)) = .ok (41 :: r) x := by
  simp only [Disposition.valid, Bool.and_eq_true] at h
  obtain ⟨l, t⟩ := x
  have h1 := rt_opt (p := extLanguage) (enc := Language.enc) (r := 41 :: r) h.2 (fun a ha => rt_extLanguage ha) rfl
  have h2 := rt_bodyFldDsp (r := bytes (encOpt Language.enc t) ++ 41 :: r) h.1
  simp [extDisposition, Disposition.enc, sp_cons, h2, h1]

theorem rt_bodyExt1part {x : SinglePartExt} {r : Bytes} (h : x.valid = true) :
    bodyExt1part (bytes x.enc ++ 41 :: r) = .ok (41 :: r) x := by
  simp only [SinglePartExt.valid, Bool.and_eq_true] at h
  obtain ⟨l, t⟩ := x
  have h1 := rt_opt (p := extDisposition) (enc := Disposition.enc) (r := 41 :: r) h.2 (fun a ha => rt_extDisposition ha) rfl
  have h2 := rt_nstring (r := bytes (encOpt Disposition.enc t) ++ 41 :: r) h.1 (by simp)
  simp [bodyExt1part, SinglePartExt.enc, h2, h1]

theorem rt_bodyExtMpart {x : MultiPartExt} {r : Bytes} (h : x.valid = true) :
    bodyExtMpart (bytes x.enc ++ 41 :: r) = .ok (41 :: r) x := by
  simp only [MultiPartExt.valid, Bool.and_eq_true] at h
  obtain ⟨l, t⟩ := x
  have h1 := rt_opt (p := extDisposition) (enc := Disposition.enc) (r := 41 :: r) h.2 (fun a ha => rt_extDisposition ha) rfl
  have h2 := rt_bodyFldParam (r := bytes (encOpt Disposition.enc t) ++ 41 :: r) h.1
  simp [bodyExtMpart, MultiPartExt.enc, h2, h1]

/-! ### Bodies -/

/-- A quoted keyword either is not the next string in the input, or the whole of it. -/
theorem tagNC_string {k : Bytes} {s : IString} {z : Bytes} (hk : k.all isAtomChar = true) :
    tagNC (34 :: (k ++ [34])) (bytes s.enc ++ z) = .error ∨ tagNC (34 :: (k ++ [34])) (bytes s.enc ++ z) = .ok z () := by
  have hq : ∀ (k d : Bytes), k.all isAtomChar = true →
      tagNC (k ++ [34]) (escapeQuoted d ++ 34 :: z) = .error ∨ tagNC (k ++ [34]) (escapeQuoted d ++ 34 :: z) = .ok z () := by
    intro k d
    induction d generalizing k with
    | nil =>
      intro hk
      cases k with
      | nil => right; rfl
      | cons a k =>
        left
        have key : ∀ a, isAtomChar a = true → ¬ lower a = lower 34 := forall_byte (by decide)
        simp only [List.all_cons, Bool.and_eq_true] at hk
        show tagNC (a :: (k ++ [34])) (34 :: z) = _
        simp [tagNC, key a hk.1]
    | cons c d ih =>
      intro hk
      rw [escapeQuoted_cons]
      by_cases hc : isQuotedSpecials c = true
      · left
        have hesc : esc1 c = [92, c] := by
          have key : ∀ c, isQuotedSpecials c = true → esc1 c = [92, c] := forall_byte (by decide)
          exact key c hc
        rw [hesc]
        cases k with
        | nil => rfl
        | cons a k =>
          have key : ∀ a, isAtomChar a = true → ¬ lower a = lower 92 := forall_byte (by decide)
          simp only [List.all_cons, Bool.and_eq_true] at hk
          simp [tagNC, key a hk.1]
      · have hesc : esc1 c = [c] := by
          have key : ∀ c, ¬ isQuotedSpecials c = true → esc1 c = [c] := forall_byte (by decide)
          exact key c hc
        rw [hesc]
        cases k with
        | nil =>
          left
          have key : ∀ c, ¬ isQuotedSpecials c = true → ¬ lower 34 = lower c := forall_byte (by decide)
          simp [tagNC, key c hc]
        | cons a k =>
          simp only [List.all_cons, Bool.and_eq_true] at hk
          by_cases ha : lower a = lower c
          · simpa [tagNC, ha] using ih k hk.2
          · left
            simp [tagNC, ha]
  cases s with
  | literal l =>
    left
    obtain ⟨d, m⟩ := l
    cases m <;> rfl
  | quoted d => simpa [IString.enc, encQuoted, tagNC] using hq k d hk
  | quotedUtf8 d => simpa [IString.enc, encQuoted, tagNC] using hq k d hk

theorem tagNC_seq (a b x : Bytes) : tagNC (a ++ b) x = (tagNC a x).andThen fun _ => tagNC b := by
  induction a generalizing x with
  | nil => rfl
  | cons c a ih =>
    cases x with
    | nil => rfl
    | cons d x =>
      simp only [List.cons_append, tagNC]
      split
      · exact ih x
      · rfl

/-- A string starts with a double quote or a brace, NIL with a letter. -/
theorem encNString_head (s : NString) : ∃ b t, bytes (encNString s) = b :: t ∧ (b = 34 ∨ b = 123 ∨ b = 78) := by
  cases s with
  | none => exact ⟨78, _, rfl, by simp⟩
  | some s =>
    obtain ⟨b, t, h1, h2⟩ := enc_string_head s
    exact ⟨b, t, h1, by tauto⟩

/-- What follows the fields of a basic body is not a number. -/
theorem number_ext {x : SinglePartExt} {r : Bytes} : number (bytes x.enc ++ r) = .error := by
  obtain ⟨b, t, h1, h2⟩ := encNString_head x.md5
  simp only [SinglePartExt.enc, bytes_append, h1, List.cons_append]
  rcases h2 with rfl | rfl | rfl <;> rfl

/-- What follows the fields of a basic body is not an envelope. -/
theorem envelope_ext {x : SinglePartExt} {r : Bytes} : envelope (bytes x.enc ++ r) = .error := by
  obtain ⟨b, t, h1, h2⟩ := encNString_head x.md5
  simp only [SinglePartExt.enc, bytes_append, h1, List.cons_append]
  rcases h2 with rfl | rfl | rfl <;> rfl

theorem stops_encOpt {enc : α → List W} {o : Option α} {r : Bytes} : Stops isDigit (bytes (encOpt enc o) ++ 41 :: r) = true := by
  cases o <;> rfl

theorem bodyTypeText_basic {f : BasicFields} {t s : IString} {x : Option SinglePartExt} {r : Bytes} (hf : f.valid = true)
    (hs : s.valid = true) :
    bodyTypeText (B := β) (bytes t.enc ++ 32 :: (bytes s.enc ++ 32 :: (bytes f.enc ++ (bytes (encOpt SinglePartExt.enc x) ++ 41 :: r)))) =
      .error := by
  have h0 : b!"\"TEXT\" " = (34 :: (b!"TEXT" ++ [34])) ++ b!" " := rfl
  rw [bodyTypeText, h0]
  rcases tagNC_string (k := b!"TEXT") (s := t)
    (z := 32 :: (bytes s.enc ++ 32 :: (bytes f.enc ++ (bytes (encOpt SinglePartExt.enc x) ++ 41 :: r)))) (by decide) with h | h
  · simp only [P.bind_apply, tagNC_seq, h, Res.andThen_error]
  · have h1 : ∀ z, tagNC b!" " (32 :: z) = .ok z () := fun _ => rfl
    simp only [P.bind_apply, tagNC_seq, h, Res.andThen_ok, h1]
    rw [rt_string hs (by simp)]
    simp only [Res.andThen_ok, P.bind_apply, sp_cons]
    rw [rt_bodyFields hf stops_encOpt]
    simp only [Res.andThen_ok, P.bind_apply]
    cases x with
    | none => rfl
    | some x => simp [encOpt, sp_cons, number_ext]

theorem bodyTypeMsg_basic {p : P β} {f : BasicFields} {t s : IString} {x : Option SinglePartExt} {r : Bytes} (hf : f.valid = true) :
    bodyTypeMsg p (bytes t.enc ++ 32 :: (bytes s.enc ++ 32 :: (bytes f.enc ++ (bytes (encOpt SinglePartExt.enc x) ++ 41 :: r)))) =
      .error := by
  have h0 : b!"\"MESSAGE\" \"RFC822\"" = (34 :: (b!"MESSAGE" ++ [34])) ++ (b!" " ++ (34 :: (b!"RFC822" ++ [34]))) := rfl
  have h1 : ∀ z, tagNC b!" " (32 :: z) = .ok z () := fun _ => rfl
  rw [bodyTypeMsg, h0]
  rcases tagNC_string (k := b!"MESSAGE") (s := t)
    (z := 32 :: (bytes s.enc ++ 32 :: (bytes f.enc ++ (bytes (encOpt SinglePartExt.enc x) ++ 41 :: r)))) (by decide) with h | h
  · simp only [P.bind_apply, tagNC_seq, h, Res.andThen_error]
  · rcases tagNC_string (k := b!"RFC822") (s := s)
      (z := 32 :: (bytes f.enc ++ (bytes (encOpt SinglePartExt.enc x) ++ 41 :: r))) (by decide) with h' | h'
    · simp only [P.bind_apply, tagNC_seq, h, Res.andThen_ok, h1, h', Res.andThen_error]
    · simp only [P.bind_apply, tagNC_seq, h, Res.andThen_ok, h1, h', sp_cons]
      rw [rt_bodyFields hf stops_encOpt]
      simp only [Res.andThen_ok, P.bind_apply]
      cases x with
      | none => rfl
      | some x => simp [encOpt, sp_cons, envelope_ext]

theorem rt_ext1part {x : Option SinglePartExt} {r : Bytes} (h : isOpt SinglePartExt.valid x = true) :
    opt (do sp; bodyExt1part) (bytes (encOpt SinglePartExt.enc x) ++ 41 :: r) = .ok (41 :: r) x :=
  rt_opt h (fun a ha => by simp [sp_cons, rt_bodyExt1part ha]) rfl

theorem rt_extMpart {x : Option MultiPartExt} {r : Bytes} (h : isOpt MultiPartExt.valid x = true) :
    opt (do sp; bodyExtMpart) (bytes (encOpt MultiPartExt.enc x) ++ 41 :: r) = .ok (41 :: r) x :=
  rt_opt h (fun a ha => by simp [sp_cons, rt_bodyExtMpart ha]) rfl

omit q in
theorem BodyStructure.one_le_need (b : BodyStructure) : 1 ≤ b.need := by
  cases b <;> simp [BodyStructure.need]

theorem rt_body (b : BodyStructure) (n : Nat) (r : Bytes) (h : b.valid = true) (hn : b.need ≤ n) : body n (bytes b.enc ++ r) = .ok r b := by
  rw [body_eq]
  match b with
  | .basic f t s x =>
    simp only [BodyStructure.valid, BodyStructure.need, Bool.and_eq_true] at h hn
    obtain ⟨⟨⟨h1, h2⟩, h3⟩, h4⟩ := h
    have e0 : bytes (BodyStructure.basic f t s x).enc ++ r =
      40 :: (bytes t.enc ++ 32 :: (bytes s.enc ++ 32 :: (bytes f.enc ++ (bytes (encOpt SinglePartExt.enc x) ++ 41 :: r)))) := by
      simp [BodyStructure.enc]
    have e1 : alt [bodyTypeMsg (body 7), bodyTypeText, bodyTypeBasic]
      (bytes t.enc ++ 32 :: (bytes s.enc ++ 32 :: (bytes f.enc ++ (bytes (encOpt SinglePartExt.enc x) ++ 41 :: r)))) =
        .ok (bytes (encOpt SinglePartExt.enc x) ++ 41 :: r) (f, .basic t s) := by
      refine Eq.trans (alt_skip (bodyTypeMsg_basic h1)) (Eq.trans (alt_skip (bodyTypeText_basic h1 h3)) (alt_hit ?_))
      simp [bodyTypeBasic, rt_string h2, rt_string h3, sp_cons, rt_bodyFields h1 stops_encOpt]
    rw [e0, bodyStep, if_neg (by omega)]
    simp only [P.bind_apply, show ∀ z, tag b!"(" (40 :: z) = .ok z () from fun _ => rfl, Res.andThen_ok]
    rw [alt_hit (r := 41 :: r) (v := .basic f t s x)]
    · rfl
    · rw [bodyType1part, if_neg (by omega)]
      simp only [P.bind_apply, e1, Res.andThen_ok, rt_ext1part h4]
      rfl
  | .text f s k x =>
    simp only [BodyStructure.valid, BodyStructure.need, Bool.and_eq_true, decide_eq_true_eq] at h hn
    obtain ⟨⟨⟨h1, h2⟩, h3⟩, h4⟩ := h
    have e0 : bytes (BodyStructure.text f s k x).enc ++ r =
      40 :: (b!"\"TEXT\" " ++ (bytes s.enc ++ 32 :: (bytes f.enc ++ 32 :: (showNat k ++ (bytes (encOpt SinglePartExt.enc x) ++ 41 :: r))))) := by
      simp [BodyStructure.enc]
    have e1 : alt [bodyTypeMsg (body 7), bodyTypeText, bodyTypeBasic]
      (b!"\"TEXT\" " ++ (bytes s.enc ++ 32 :: (bytes f.enc ++ 32 :: (showNat k ++ (bytes (encOpt SinglePartExt.enc x) ++ 41 :: r))))) =
        .ok (bytes (encOpt SinglePartExt.enc x) ++ 41 :: r) (f, .text s k) := by
      refine Eq.trans (alt_skip rfl) (alt_hit ?_)
      rw [bodyTypeText]
      simp only [P.bind_apply, tagNC_append, Res.andThen_ok]
      rw [rt_string h2 (by simp)]
      simp only [P.bind_apply, Res.andThen_ok, sp_cons]
      rw [rt_bodyFields h1 rfl]
      simp only [P.bind_apply, Res.andThen_ok, sp_cons]
      rw [rt_number h3 stops_encOpt]
      rfl
    rw [e0, bodyStep, if_neg (by omega)]
    simp only [P.bind_apply, show ∀ z, tag b!"(" (40 :: z) = .ok z () from fun _ => rfl, Res.andThen_ok]
    rw [alt_hit (r := 41 :: r) (v := .text f s k x)]
    · rfl
    · rw [bodyType1part, if_neg (by omega)]
      simp only [P.bind_apply, e1, Res.andThen_ok, rt_ext1part h4]
      rfl
  | .message f e b k x =>
    simp only [BodyStructure.valid, BodyStructure.need, Bool.and_eq_true, decide_eq_true_eq] at h hn
    obtain ⟨⟨⟨⟨⟨h1, h2⟩, h3⟩, h4⟩, h5⟩, h6⟩ := h
    have ih := fun r => rt_body b 7 r h3 h4
    have e0 : bytes (BodyStructure.message f e b k x).enc ++ r =
      40 :: (b!"\"MESSAGE\" \"RFC822\"" ++ 32 :: (bytes f.enc ++ 32 :: (bytes e.enc ++ 32 :: (bytes b.enc ++
        32 :: (showNat k ++ (bytes (encOpt SinglePartExt.enc x) ++ 41 :: r)))))) := by
      simp [BodyStructure.enc]
    have e1 : alt [bodyTypeMsg (body 7), bodyTypeText, bodyTypeBasic]
      (b!"\"MESSAGE\" \"RFC822\"" ++ 32 :: (bytes f.enc ++ 32 :: (bytes e.enc ++ 32 :: (bytes b.enc ++
        32 :: (showNat k ++ (bytes (encOpt SinglePartExt.enc x) ++ 41 :: r)))))) =
        .ok (bytes (encOpt SinglePartExt.enc x) ++ 41 :: r) (f, .message e b k) := by
      refine alt_hit ?_
      rw [bodyTypeMsg]
      simp only [P.bind_apply, tagNC_append, Res.andThen_ok, sp_cons]
      rw [rt_bodyFields h1 rfl]
      simp only [P.bind_apply, Res.andThen_ok, sp_cons]
      rw [rt_envelope h2]
      simp only [P.bind_apply, Res.andThen_ok, sp_cons, ih]
      rw [rt_number h5 stops_encOpt]
      rfl
    rw [e0, bodyStep, if_neg (by omega)]
    simp only [P.bind_apply, show ∀ z, tag b!"(" (40 :: z) = .ok z () from fun _ => rfl, Res.andThen_ok]
    rw [alt_hit (r := 41 :: r) (v := .message f e b k x)]
    · rfl
    · rw [bodyType1part, if_neg (by omega)]
      simp only [P.bind_apply, e1, Res.andThen_ok, rt_ext1part h6]
      rfl
  | .multi l s x =>
    simp only [BodyStructure.valid, BodyStructure.need, Bool.and_eq_true, BodyStructure.valid_go] at h hn
    obtain ⟨⟨⟨h1, h2⟩, h3⟩, h4⟩ := h
    have hn' : ∀ b ∈ l, b.need ≤ n - 1 := BodyStructure.need_go.1 (by omega)
    have ih : ∀ b ∈ l, ∀ r, body (n - 1) (bytes b.enc ++ r) = .ok r b := fun b hb r => rt_body b (n - 1) r (h2 b hb) (hn' b hb)
    obtain ⟨a, l', rfl⟩ : ∃ a l', l = a :: l' := by
      cases l with
      | nil => simp at h1
      | cons a l' => exact ⟨a, l', rfl⟩
    have hn1 : 1 ≤ n - 1 := Nat.le_trans a.one_le_need (hn' a (by simp))
    have e0 : bytes (BodyStructure.multi (a :: l') s x).enc ++ r =
      40 :: (bytes a.enc ++ ((l'.flatMap fun b => bytes b.enc) ++
        32 :: (bytes s.enc ++ (bytes (encOpt MultiPartExt.enc x) ++ 41 :: r)))) := by
      simp [BodyStructure.enc, BodyStructure.enc_go, bytes_flatMap]
    have hstop : ∀ z, body (n - 1) (32 :: z) = .error := by
      intro z
      rw [body_eq, bodyStep, if_neg (by omega)]
      rfl
    have e1 : many0 (body (n - 1)) ((l'.flatMap fun b => bytes b.enc) ++ 32 :: (bytes s.enc ++ (bytes (encOpt MultiPartExt.enc x) ++ 41 :: r))) =
        .ok (32 :: (bytes s.enc ++ (bytes (encOpt MultiPartExt.enc x) ++ 41 :: r))) (l'.map id) := by
      refine many0_concat (F := fun _ => True) l' (fun b hb r _ => ih b (by simp [hb]) r) ?_ (fun _ _ _ => trivial) trivial (hstop _)
      intro b _
      cases b <;> simp [BodyStructure.enc]
    obtain ⟨t, ht⟩ : ∃ t, bytes a.enc = 40 :: t := by
      cases a <;> exact ⟨_, rfl⟩
    rw [e0, bodyStep, if_neg (by omega)]
    simp only [P.bind_apply, show ∀ z, tag b!"(" (40 :: z) = .ok z () from fun _ => rfl, Res.andThen_ok]
    rw [alt_skip, alt_hit (r := 41 :: r) (v := .multi (a :: l') s x)]
    · rfl
    · rw [bodyTypeMpart, if_neg (by omega)]
      simp only [P.bind_apply, many1, ih a (by simp), Res.andThen_ok, e1, P.pure_apply, sp_cons]
      rw [rt_string h3 (by simp)]
      simp only [Res.andThen_ok, P.bind_apply, rt_extMpart h4, List.map_id]
      rfl
    · rw [bodyType1part, if_neg (by omega), ht]
      rfl
termination_by sizeOf b
decreasing_by
  · simp; omega
  · have := List.sizeOf_lt_of_mem hb
    simp
    omega

end

end Imap
