import Verif.DataRT
/-
The decoder rejects each encoding of a FETCH response with the item MODSEQ.
-/
set_option maxRecDepth 10000

namespace Imap

variable [Quirks]

theorem msgItem_modSeq (n : Nat) (r : Bytes) :
    alt [msgAttDynamic, msgAttStatic] (bytes (MessageDataItem.enc (.modSeq n)) ++ r) = .error := by
  obtain ⟨b, bs, hb, hd⟩ := showNat_head n
  have h40 : (40 : UInt8) ≠ b := by rintro rfl; revert hd; decide
  have e : bytes (MessageDataItem.enc (.modSeq n)) ++ r = b!"MODSEQ " ++ b :: (bs ++ r) := by simp [MessageDataItem.enc, hb]
  have e1 : msgAttDynamic (b!"MODSEQ " ++ b :: (bs ++ r)) = .error := by
    simp [gate, msgAttDynamic, alt, orElse, tagNC, lower, tag, h40]
  have e2 : msgAttStatic (b!"MODSEQ " ++ b :: (bs ++ r)) = .error := rfl
  rw [e]
  simp only [alt, orElse, e1, e2, P.fail]

omit [Quirks] in
theorem split_modSeq {l : List MessageDataItem} (h : l.all MessageDataItem.noModSeq = false) :
    ∃ pre n post, l = pre ++ .modSeq n :: post ∧ ∀ a ∈ pre, a.noModSeq = true := by
  induction l with
  | nil => simp at h
  | cons a l ih =>
    cases ha : a.noModSeq with
    | false =>
      cases a <;> simp [MessageDataItem.noModSeq] at ha
      exact ⟨[], _, l, rfl, by simp⟩
    | true =>
      simp only [List.all_cons, ha, Bool.true_and] at h
      obtain ⟨pre, n, post, rfl, hp⟩ := ih h
      exact ⟨a :: pre, n, post, rfl, by simpa [ha] using hp⟩

theorem msgAtt_modSeq {l : List MessageDataItem} {r : Bytes} (h : ∀ a ∈ l, a.valid = true)
    (hm : l.all MessageDataItem.noModSeq = false) :
    msgAtt (40 :: (bytes (join b!" " (l.map MessageDataItem.enc)) ++ 41 :: r)) = .error := by
  obtain ⟨pre, n, post, rfl, hp⟩ := split_modSeq hm
  have htail : ∃ tail, bytes (join b!" " ((pre ++ .modSeq n :: post).map MessageDataItem.enc)) ++ 41 :: r =
      bytes (join b!" " (pre.map MessageDataItem.enc)) ++ (if pre = [] then [] else b!" ") ++
        (bytes (MessageDataItem.enc (.modSeq n)) ++ tail) := by
    cases pre with
    | nil => exact ⟨List.flatMap (fun y => 32 :: bytes y) (List.map MessageDataItem.enc post) ++ 41 :: r, by simp [bytes_join]⟩
    | cons p pre => exact ⟨List.flatMap (fun y => 32 :: bytes y) (List.map MessageDataItem.enc post) ++ 41 :: r, by simp [bytes_join]⟩
  obtain ⟨tail, ht⟩ := htail
  rw [ht]
  simp only [msgAtt, P.bind_apply, tag, Res.andThen_ok, if_true]
  have em := msgItem_modSeq n tail
  have em' := em
  simp only [alt_cons] at em'
  by_cases hpre : pre = []
  · subst hpre
    simp [sepList1, join, em']
  · have := sepList1_join (sep := sp) (s := b!" ") (p := alt [msgAttDynamic, msgAttStatic]) (e := MessageDataItem.enc) (g := id)
      (F := fun r => Stops isDigit r = true)
      (rest := 32 :: (bytes (MessageDataItem.enc (.modSeq n)) ++ tail)) hpre (fun r => rfl) (by simp)
      (fun v hv r hr => rt_msgItem (h v (by simp [hv])) (hp v hv) hr) (fun _ => rfl) rfl (by simp [sp_cons, em'])
    simp only [if_neg hpre]
    rw [List.append_assoc, List.singleton_append, this]
    simp [tag]

/-- A message number followed by a space and neither EXISTS nor RECENT. -/
theorem responseDataInner_message_error {n : Nat} {c : UInt8} {x : Bytes} (h : isNonZeroU32 n = true) (hc : isLetter c = true)
    (h1 : tagNC b!" EXISTS" (32 :: c :: x) = .error) (h2 : tagNC b!" RECENT" (32 :: c :: x) = .error)
    (h3 : messageDataTail n (c :: x) = .error) : responseDataInner (showNat n ++ 32 :: c :: x) = .error := by
  have hn := nonZero_of_wf h
  have e := rt_number (r := 32 :: c :: x) hn.2 rfl
  have e' := rt_nzNumber (r := 32 :: c :: x) hn.1 hn.2 rfl
  obtain ⟨b, bs, hx, hb⟩ := showNat_append_head n (32 :: c :: x)
  rw [hx] at e e' ⊢
  rw [responseDataInner_digit hb]
  refine Eq.trans (alt_skip ?_) (Eq.trans (alt_skip ?_) ?_)
  · have : mailboxData (b :: bs) = .error := by
      rw [mailboxData_digit hb]
      refine Eq.trans (alt_skip ?_) (Eq.trans (alt_skip ?_) ?_)
      · simp [e, h1]
      · simp [e, h2]
      · simp [orElse, quotarootResponse, quotaResponse, tagNC_nonletter hb]
    simp [this]
  · simp [gate, messageData, alt, orElse, e', sp_cons, h3, vanishedData, tagNC_nonletter hb, P.fail]
  · simp [gate, alt, orElse, capabilityData, enableData, idResponse, tagNC_nonletter hb, P.fail]

/-- The decoder rejects each encoding of a response with the item MODSEQ. -/
theorem response_modSeq {v : Response} {r : Bytes} (h : v.valid = true) (hm : v.noModSeq = false) :
    response (bytes v.enc ++ r) = .error := by
  cases v with
  | continue_ => simp [Response.noModSeq] at hm
  | status => simp [Response.noModSeq] at hm
  | data d =>
    cases d with
    | fetch n l =>
      have hl : l.all MessageDataItem.noModSeq = false := by simpa [Response.noModSeq, Data.noModSeq] using hm
      simp only [Response.valid, Data.valid, Bool.and_eq_true, Bool.not_eq_true', List.isEmpty_eq_false_iff] at h
      have e := msgAtt_modSeq (r := 13 :: 10 :: r) (List.all_eq_true.1 h.2) hl
      have e' : responseDataInner (showNat n ++ (b!" FETCH (" ++ (bytes (join b!" " (l.map MessageDataItem.enc)) ++ 41 :: 13 :: 10 :: r))) =
          .error := by
        refine responseDataInner_message_error h.1.1 (by decide) rfl rfl ?_
        simp [messageDataTail, alt, orElse, value, tagNC, lower, e, P.fail]
      have e2 : responseData (bytes (Response.enc (.data (.fetch n l))) ++ r) = .error := by
        have : bytes (Response.enc (.data (.fetch n l))) ++ r =
            b!"* " ++ (showNat n ++ (b!" FETCH (" ++ (bytes (join b!" " (l.map MessageDataItem.enc)) ++ 41 :: 13 :: 10 :: r))) := by
          simp [Response.enc, Data.enc, Data.encLine]
        rw [this]
        have et : ∀ x, tag b!"* " (b!"* " ++ x) = .ok x () := fun _ => rfl
        simp only [responseData, P.bind_apply, et, Res.andThen_ok, e', Res.andThen_error]
      obtain ⟨b, x, hx, hb⟩ : ∃ b x, bytes (Response.enc (.data (.fetch n l))) ++ r = 42 :: 32 :: b :: x ∧ isLetter b = false := by
        obtain ⟨b, bs, hx, hb⟩ := showNat_append_head n (32 :: 70 :: 69 :: 84 :: 67 :: 72 :: 32 :: 40 ::
          (bytes (join b!" " (l.map MessageDataItem.enc)) ++ 41 :: 13 :: 10 :: r))
        exact ⟨b, bs, by simp [Response.enc, Data.enc, Data.encLine, hx], hb⟩
      rw [hx] at e2 ⊢
      have e3 : emptyContinueReq (42 :: 32 :: b :: x) = .error := rfl
      have e4 : continueReq (42 :: 32 :: b :: x) = .error := rfl
      have e5 : responseDone (42 :: 32 :: b :: x) = .error := by
        have : tagImap (42 :: 32 :: b :: x) = .error := rfl
        simp [responseDone, orElse, responseTagged, this, responseFatal, tag, respCondBye, tagNC_nonletter hb]
      unfold response
      split <;> simp [orElse, e2, e3, e4, e5]
    | _ => simp [Response.noModSeq, Data.noModSeq] at hm

end Imap
