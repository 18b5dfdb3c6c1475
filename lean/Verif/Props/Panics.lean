import Verif.Panics
import Verif.ResponsePost
import Verif.CommandLemmas
import Verif.FetchNameLemmas
import Verif.Props.Constructors
/-
C69: the decoder does not panic.

Each theorem says that a place in the decoder that can panic gives, for every input and with or without debug assertions, what the
decoder of the model (which cannot panic) gives there. In particular it is never `none`, the panic.
-/
set_option maxRecDepth 10000

namespace Imap

open Spec Panics

variable {α β : Type}

theorem mapRisky_eq {p : P α} {f : α → Risky β} {g : α → β} (h : Post p fun v => f v = .ok (g v)) (x : Bytes) :
    mapRisky p f x = some ((g <$> p) x) := by
  simp only [mapRisky, P.map_apply]
  cases e : p x with
  | ok r v => simp [h x r v e, Res.andThen]
  | _ => rfl

theorem mapRisky_same {p : P α} {f : α → Risky α} (h : Post p fun v => f v = .ok v) (x : Bytes) : mapRisky p f x = some (p x) := by
  simp only [mapRisky]
  cases e : p x with
  | ok r v => simp [h x r v e]
  | _ => rfl

theorem unvalidated_ok {debug : Bool} {val : α → Made ValidationError Unit} {v : α} (h : val v = .ok ()) : unvalidated debug val v = .ok v := by
  cases debug
  · rfl
  · simp only [unvalidated, h]; rfl

theorem utf8_ok {f : UInt8 → Bool} (hf : ∀ b, f b = true → b.toNat < 128) {v : Bytes} (h : v.all f = true) : utf8 v = .ok v := by
  rw [utf8, fromUtf8Unwrap_ok fun b hb => hf b (List.all_eq_true.1 h b hb)]; rfl

theorem validate_ok {f : UInt8 → Bool} {v : Bytes} (h : v.all f = true) : validateBytes f v = .ok () :=
  validateBytes_ok (c := fun b => f b = true) (fun _ => Iff.rfl) (List.all_eq_true.1 h)

theorem validate1_ok {f : UInt8 → Bool} {v : Bytes} (h0 : v ≠ []) (h : v.all f = true) : validateBytes1 f v = .ok () := by
  have : v.isEmpty = false := by simpa using h0
  simp only [validateBytes1, this, Bool.false_eq_true, if_false, validate_ok h]

/-- A token: the bytes are UTF-8 and pass the check. -/
theorem token_same {f : UInt8 → Bool} (hf : ∀ b, f b = true → b.toNat < 128) {val : Bytes → Made ValidationError Unit}
    (hv : ∀ v, v ≠ [] → v.all f = true → val v = .ok ()) (debug : Bool) (x : Bytes) :
    mapRisky (takeWhile1 f) (fun v => (utf8 v).bind (unvalidated debug val)) x = some (takeWhile1 f x) :=
  mapRisky_same (Post.canon fun v h => by
    show Made.bind _ _ = _
    rw [utf8_ok hf h.2]; exact unvalidated_ok (hv v h.1 h.2)) x

theorem vecN_ok {n : Nat} {l : List α} (h : n ≤ l.length) : VecN.tryFrom n l = .ok l := by
  simp [VecN.tryFrom, Nat.not_lt.2 h]

theorem validateVecN_ok {n : Nat} {l : List α} (h : n ≤ l.length) : validateVecN n l = .ok () := by
  rw [validateVecN, vecN_ok h]; rfl

theorem digit_ascii : ∀ b : UInt8, isDigit b = true → b.toNat < 128 := forall_byte (by decide +kernel)
theorem atomChar_ascii' : ∀ b : UInt8, isAtomChar b = true → b.toNat < 128 := forall_byte (by decide +kernel)
theorem astringChar_ascii' : ∀ b : UInt8, isAStringChar b = true → b.toNat < 128 := forall_byte (by decide +kernel)
theorem tagChar_ascii' : ∀ b : UInt8, (isAStringChar b && b != 43) = true → b.toNat < 128 := forall_byte (by decide +kernel)
theorem textChar_ascii' : ∀ b : UInt8, isTextChar b = true → b.toNat < 128 := forall_byte (by decide +kernel)
theorem listChar_ascii' : ∀ b : UInt8, isListChar b = true → b.toNat < 128 := forall_byte (by decide +kernel)

/-- Any parser has the trivial postcondition. -/
theorem canonTrue (p : P α) : Canon p fun _ => True := ⟨fun _ _ _ _ => trivial⟩

theorem sepList1_length (sep : P Unit) (p : P α) : Post (sepList1 sep p) fun l => 1 ≤ l.length := by
  have := canonTrue p
  exact Post.canon fun l h => List.length_pos_iff.2 h.1

theorem many1_length (p : P α) : Post (many1 p) fun l => 1 ≤ l.length := by
  have := canonTrue p
  exact Post.canon fun l h => List.length_pos_iff.2 h.1

theorem many2_length (p : P α) : Post (many2 p) fun l => 2 ≤ l.length := by
  have := canonTrue p
  exact Post.canon fun l h => h.1

/-! ### C69 -/

/-- Digits. -/
theorem C69_digits (x : Bytes) : Panics.digit1 x = some (takeWhile1 isDigit x) ∧ Panics.digits12 x = some (take1or2 isDigit x) ∧
    (∀ n, Panics.digitsN n x = some (takeExactly isDigit n x)) ∧
    Panics.dayDigit x = some (((fun v : Bytes => v.headD 0 - 48) <$> takeExactly isDigit 1) x) := by
  refine ⟨mapRisky_same (Post.canon fun v h => utf8_ok digit_ascii h.2) x, mapRisky_same (Post.canon fun v h => utf8_ok digit_ascii h.2) x,
    fun n => mapRisky_same (Post.canon fun v h => utf8_ok digit_ascii h.2) x, mapRisky_eq (Post.canon fun v h => ?_) x⟩
  obtain ⟨hl, hv⟩ := h
  rcases v with _ | ⟨b, v⟩
  · simp at hl
  · have : ∀ b : UInt8, isDigit b = true → ¬ b < 48 := forall_byte (by decide +kernel)
    simp [this b (by simp at hv; exact hv.1)]

/-- Quoted strings and quoted characters. -/
theorem C69_quoted (debug : Bool) (x : Bytes) :
    Panics.quotedText x = some (escaped isAnyTextCharExceptQuotedSpecials x) ∧ Panics.quoted debug x = some (Imap.quoted x) ∧
    Panics.quotedCharPlain x = some (satisfy isAnyTextCharExceptQuotedSpecials x) ∧ Panics.quotedCharEscaped x = some (satisfy isQuotedSpecials x) ∧
    Panics.quotedChar debug x = some (((fun b : UInt8 => Char.ofNat b.toNat) <$> Imap.quotedChar) x) := by
  have one : ∀ f : UInt8 → Bool, mapRisky (takeExactly f 1) assertOne x = some (satisfy f x) := by
    intro f
    rcases x with _ | ⟨b, x⟩
    · rfl
    · cases h : f b <;> simp [mapRisky, takeExactly, satisfy, h, assertOne]
  have esc : ∀ s : Bytes, (∀ b ∈ s, isTextChar b = true) → ∀ b ∈ escapeQuoted s, isTextChar b = true := by
    have step : ∀ (c : UInt8) (s : Bytes), isTextChar c = true → (∀ b ∈ s, isTextChar b = true) →
        ∀ b ∈ replace1 c [92, c] s, isTextChar b = true := by
      intro c s hc hs b hb
      rw [replace1, List.mem_flatMap] at hb
      obtain ⟨d, hd, hb⟩ := hb
      split at hb <;> simp at hb
      · rcases hb with rfl | rfl
        · decide
        · exact hc
      · exact hb ▸ hs _ hd
    exact fun s hs => step 34 _ (by decide) (step 92 _ (by decide) hs)
  refine ⟨mapRisky_same (fun i r v e => ?_) x, ?_, one _, one _, mapRisky_eq (Post.canon fun b h => unvalidated_ok ?_) x⟩
  · obtain ⟨s, rfl, hs⟩ := escaped_post _ rfl rfl i r v e
    exact utf8_ok textChar_ascii' (List.all_eq_true.2 (esc s fun b hb => (text_or_special b).1 (hs b hb)))
  · have : Canon (escaped isAnyTextCharExceptQuotedSpecials) _ := ⟨escaped_post _ rfl rfl⟩
    rw [Panics.quoted, mapRisky_eq (g := unescapeQuoted)]
    · simp only [Imap.quoted, P.map_apply, P.bind_apply]
      cases dquote x with
      | ok i _ =>
        simp only [Res.andThen_ok, P.bind_apply]
        cases escaped isAnyTextCharExceptQuotedSpecials i with
        | ok j s =>
          simp only [Res.andThen_ok, P.bind_apply]
          cases dquote j <;> rfl
        | _ => rfl
      | _ => rfl
    · post
      next v hv v' hv' =>
      obtain ⟨s, rfl, hs⟩ := hv'
      rw [unescape_escape]
      exact unvalidated_ok (validate_ok (List.all_eq_true.2 fun b hb => (text_or_special b).1 (hs b hb)))
  · revert b
    exact forall_byte (by decide +kernel)

/-- Atoms, the atoms of `astring`, texts, tags, and the patterns of LIST. -/
theorem C69_tokens (debug : Bool) (x : Bytes) :
    Panics.atom debug x = some (Imap.atom x) ∧ Panics.atomExt debug x = some (takeWhile1 isAStringChar x) ∧
    Panics.text debug x = some (Imap.text x) ∧ Panics.tagImap debug x = some (Imap.tagImap x) ∧
    Panics.listChars debug x = some (takeWhile1 isListChar x) := by
  refine ⟨token_same atomChar_ascii' (fun v h0 h => validate1_ok h0 h) debug x,
    token_same astringChar_ascii' (fun v h0 h => validate1_ok h0 h) debug x,
    token_same textChar_ascii' (fun v h0 h => validate1_ok h0 h) debug x,
    token_same tagChar_ascii' (fun v h0 h => validate1_ok h0 ?_) debug x,
    token_same listChar_ascii' (fun v h0 h => validate1_ok h0 h) debug x⟩
  rw [List.all_eq_true] at h ⊢
  intro b hb
  have := h b hb
  revert this
  cases isAStringChar b <;> simp

/-- Lists that must have one or two elements, of any elements and separators. -/
theorem C69_lists (debug : Bool) (sep : P Unit) (p : P α) (x : Bytes) :
    Panics.list1 debug sep p x = some (sepList1 sep p x) ∧ Panics.list1Unwrap sep p x = some (sepList1 sep p x) ∧
    Panics.vec1 p x = some (many1 p x) ∧ Panics.vec2 debug p x = some (many2 p x) := by
  refine ⟨mapRisky_same (fun i r v e => unvalidated_ok (validateVecN_ok (sepList1_length sep p i r v e))) x,
    mapRisky_same (fun i r v e => ?_) x, mapRisky_same (fun i r v e => ?_) x,
    mapRisky_same (fun i r v e => unvalidated_ok (validateVecN_ok (many2_length p i r v e))) x⟩
  · show unwrap _ = _
    rw [vecN_ok (sepList1_length sep p i r v e)]; rfl
  · show unwrap _ = _
    rw [vecN_ok (many1_length p i r v e)]; rfl

/-- Dates, and dates with times. -/
theorem C69_dates (debug : Bool) (x : Bytes) :
    Panics.dateText debug x = some (Imap.dateText x) ∧ Panics.dateTime debug x = some (Imap.dateTime x) ∧
    Panics.zoneSign x = some (alt [value true (char 43), value false (char 45)] x) := by
  refine ⟨mapRisky_same (Post.canon fun o h => ?_) x, mapRisky_same (Post.canon fun t h => unvalidated_ok ?_) x, ?_⟩
  · cases o with
    | none => rfl
    | some d =>
      have := h d rfl
      simp only [NaiveDate.valid, Bool.and_eq_true, decide_eq_true_eq] at this
      show Made.bind _ _ = _
      rw [unvalidated_ok (by simp [validateDate, this.1.1.1.1])]; rfl
  · simp only [DateTime.valid, NaiveDate.valid, Bool.and_eq_true, decide_eq_true_eq, beq_iff_eq] at h
    simp [validateDateTime, h.1.1.1.1.1.1.1.1.1, h.1.2]
  · rcases x with _ | ⟨b, x⟩
    · rfl
    · by_cases h1 : b = 43
      · subst h1; rfl
      · by_cases h2 : b = 45
        · subst h2; rfl
        · simp [Panics.zoneSign, mapRisky, alt, orElse, value, char, h1, h2]

/-- Mailboxes. -/
theorem C69_mailbox [Quirks] (x : Bytes) : Panics.mailbox x = some (Imap.mailbox x) :=
  mapRisky_eq (fun _ _ v _ => by show unwrapOption _ = _; rw [Mailbox.fromAString_eq]; rfl) x

/-- The `unreachable!()` of UID commands and of sections. -/
theorem C69_unreachable [Quirks] (x : Bytes) :
    Panics.uid x = some (mapRes uidBody CommandBody.setUid x) ∧ Panics.sectionMsgtext x = some (mapRes Imap.sectionMsgtext Section.ofMsgtext x) := by
  constructor
  · simp only [Panics.uid, mapRisky, mapRes]
    cases e : uidBody x with
    | ok r v => obtain ⟨w, h, -⟩ := uidBody_setUid x r v e; simp [h, unwrapOption]
    | _ => rfl
  · simp only [Panics.sectionMsgtext, mapRisky, mapRes]
    cases e : Imap.sectionMsgtext x with
    | ok r v => obtain ⟨w, h⟩ := sectionMsgtext_ofMsgtext e; simp [h, unwrapOption]
    | _ => rfl

/-- Continuation requests: a text that the constructor rejects as ambiguous is never given to it. -/
theorem C69_continueReq [Quirks] (x : Bytes) : Panics.continueReq x = some (Imap.continueReq x) := by
  simp only [Panics.continueReq, mapRisky, Imap.continueReq, mapRes]
  cases e : continueInner x with
  | ok r v =>
    have h := continueInner_toReq e
    cases v with
    | base64 d => rfl
    | basic y =>
      obtain ⟨c, t⟩ := y
      obtain ⟨q, hq⟩ := Option.isSome_iff_exists.1 h
      simp only [ContinueEither.toReq] at hq ⊢
      have : ContinueReq.mkBasic c (.ok t : Made Empty Bytes) = .ok q := by
        show (match ContinueReq.ofBasic c t with | some r => Made.ok r | none => Made.err ContinueError.ambiguity) = _
        rw [hq]
      simp [this, hq, unwrap]
  | _ => rfl

/-- The constants that the decoder puts in for what is missing. -/
theorem C69_constants (debug : Bool) : Panics.missingText debug = .ok b!"..." ∧
    Panics.emptyContinueReq = .ok (.basic none b!"...") ∧ Panics.missingEncoding = .ok (.quoted []) := by
  refine ⟨?_, by decide +kernel, by decide +kernel⟩
  cases debug <;> decide +kernel

/-! The parsers succeed on these, so that the code behind them is reached. -/

example : Panics.digit1 b!"42 " = some (.ok b!" " b!"42") := by decide +kernel
example : Panics.dayDigit b!"7-" = some (.ok b!"-" 7) := by decide +kernel
example : Panics.quoted true b!"\"a\\\"b\" " = some (.ok b!" " b!"a\"b") := by decide +kernel
example : Panics.quotedCharEscaped b!"\" " = some (.ok b!" " 34) := by decide +kernel
example : Panics.quotedChar true b!"\\\" " = some (.ok b!" " '"') := by decide +kernel
example : Panics.atom true b!"abc " = some (.ok b!" " b!"abc") := by decide +kernel
example : Panics.tagImap true b!"A1 " = some (.ok b!" " b!"A1") := by decide +kernel
example : Panics.list1 true sp Imap.atom b!"a b)" = some (.ok b!")" [b!"a", b!"b"]) := by with_unfolding_all rfl
example : Panics.vec2 true (do tag b!"("; Imap.atom) b!"(a(b)" = some (.ok b!")" [b!"a", b!"b"]) := by with_unfolding_all rfl
example : Panics.dateText true b!"1-Feb-2024 " = some (.ok b!" " (some ⟨2024, 2, 1⟩)) := by with_unfolding_all rfl
example : @Panics.mailbox Quirks.default b!"iNbOx " = some (.ok b!" " .inbox) := by with_unfolding_all rfl
example : Panics.zoneSign b!"-0100" = some (.ok b!"0100" false) := by with_unfolding_all rfl
example : @Panics.continueReq Quirks.default b!"+ hi!\r\n" = some (.ok [] (.basic none b!"hi!")) := by with_unfolding_all rfl
example : @Panics.continueReq Quirks.default b!"+ aGk=\r\n" = some (.ok [] (.base64 b!"hi")) := by with_unfolding_all rfl
example : @Panics.uid Quirks.default b!"COPY 1 a\r" = some (@mapRes _ _ (@uidBody Quirks.default) CommandBody.setUid b!"COPY 1 a\r") ∧
    ∃ r v, @Panics.uid Quirks.default b!"COPY 1 a\r" = some (.ok r v) :=
  ⟨(@C69_unreachable Quirks.default _).1, b!"\r", _, by with_unfolding_all rfl⟩

/-! The same code behind parsers that accept more would panic. -/

example : mapRisky (takeWhile1 fun b => b != 32) utf8 [255, 32] = none := by decide +kernel
example : mapRisky (takeWhile1 isTextChar) (unvalidated true Atom.validate) b!"a b\r" = none := by decide +kernel
example : mapRisky (takeWhile1 isTextChar) (unvalidated false Atom.validate) b!"a b\r" = some (.ok b!"\r" b!"a b") := by decide +kernel
example : mapRisky (sepList0 sp Imap.atom) (unvalidated true (validateVecN 1)) b!")" = none := by with_unfolding_all rfl
example : unwrap (ContinueReq.mkBasic none (Text.tryFrom b!"[x")) = .panicked := by decide +kernel
example : unwrapOption CommandBody.noop.setUid = .panicked := rfl

end Imap
