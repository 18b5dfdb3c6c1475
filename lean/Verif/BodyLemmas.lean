import Verif.Body
import Verif.CommandRT
/-
Facts about envelopes and body structures: niceness, postconditions, the recursion equation of `body`.
-/
set_option maxRecDepth 10000

namespace Imap

variable {α β : Type}

section
variable [Quirks]

/-- Niceness of a long sequence. -/
macro "nice_seq" : tactic => `(tactic| ((repeat' refine Nice.bind (by infer_instance) fun _ => ?_); infer_instance))

instance : Nice addressParen := by unfold addressParen; nice_seq
instance : Nice address := by unfold address; infer_instance
instance : Nice envAddresses := by unfold envAddresses; infer_instance
instance : Nice envelope := by unfold envelope; nice_seq

theorem bodyExtension_nice (n : Nat) : Nice (bodyExtension n) := by
  induction n with
  | zero => unfold bodyExtension; infer_instance
  | succ n ih => unfold bodyExtension; infer_instance

instance (n : Nat) : Nice (bodyExtension n) := bodyExtension_nice n
instance : Nice fldParam := by unfold fldParam; infer_instance
instance : Nice bodyFldParam := by unfold bodyFldParam; infer_instance
instance : Nice bodyFldEnc := by unfold bodyFldEnc; infer_instance
instance : Nice bodyFldOctets := by unfold bodyFldOctets; infer_instance
instance : Nice bodyFldDsp := by unfold bodyFldDsp; infer_instance
instance : Nice bodyFldLang := by unfold bodyFldLang; infer_instance
instance : Nice extLocation := by unfold extLocation; infer_instance
instance : Nice extLanguage := by unfold extLanguage; infer_instance
instance : Nice extDisposition := by unfold extDisposition; infer_instance
instance : Nice bodyExt1part := by unfold bodyExt1part; infer_instance
instance : Nice bodyExtMpart := by unfold bodyExtMpart; infer_instance
instance : Nice bodyFields := by unfold bodyFields; nice_seq
instance : Nice (bodyTypeBasic (B := β)) := by unfold bodyTypeBasic; infer_instance
instance : Nice (bodyTypeText (B := β)) := by unfold bodyTypeText; infer_instance
instance {p : P β} [Nice p] : Nice (bodyTypeMsg p) := by unfold bodyTypeMsg; nice_seq
instance {n : Nat} {p : P BodyStructure} [Nice p] : Nice (bodyType1part n p) := by unfold bodyType1part; infer_instance
instance {n : Nat} {p : P BodyStructure} [Nice p] : Nice (bodyTypeMpart n p) := by unfold bodyTypeMpart; infer_instance
instance {n : Nat} {p q : P BodyStructure} [Nice p] [Nice q] : Nice (bodyStep n p q) := by unfold bodyStep; infer_instance

/-- The parser that always needs more input. -/
theorem Nice.incomplete : Nice (fun _ => .incomplete : P α) where
  ok := by simp
  err := by simp
  fail := by simp
  suf := by simp
  lit := by simp
  more := by simp

theorem bodyFuel_nice (f n : Nat) : Nice (bodyFuel f n) := by
  induction f generalizing n with
  | zero => exact Nice.incomplete
  | succ f ih =>
    have := ih 7
    have := ih (n - 1)
    unfold bodyFuel
    infer_instance

instance (f n : Nat) : Nice (bodyFuel f n) := bodyFuel_nice f n

/-! ### Independence of the fuel -/

/-- The parsers agree on inputs up to a length. -/
def Agree (L : Nat) (p q : P α) : Prop := ∀ x : Bytes, x.length ≤ L → p x = q x

theorem Agree.refl {L : Nat} (p : P α) : Agree L p p := fun _ _ => rfl

theorem Agree.bind {L : Nat} {p q : P α} {f g : α → P β} [hn : Nice p] (h : Agree L p q) (hf : ∀ v, Agree L (f v) (g v)) :
    Agree L (p >>= f) (q >>= g) := by
  intro x hx
  simp only [P.bind_apply, ← h x hx]
  cases e : p x with
  | ok r v => exact hf v r (Nat.le_trans (hn.len e) hx)
  | _ => rfl

theorem Agree.alt_cons {L : Nat} {p q : P α} {ps qs : List (P α)} (h : Agree L p q) (hs : Agree L (alt ps) (alt qs)) :
    Agree L (alt (p :: ps)) (alt (q :: qs)) := by
  intro x hx
  simp only [Imap.alt_cons, orElse, h x hx, hs x hx]

theorem Agree.many0 {L : Nat} {p q : P α} (h : Agree L p q) : Agree L (many0 p) (many0 q) := by
  intro x
  fun_induction Imap.many0 p x with
  | case1 i r v e hl ih =>
    intro hx
    rw [Imap.many0.eq_def q, ← h i hx, e]
    simp only [hl, if_true]
    rw [ih (by omega)]
  | case2 i r v e hl =>
    intro hx
    rw [Imap.many0, ← h i hx, e]
    simp [hl]
  | case3 i e => intro hx; rw [Imap.many0.eq_def q, ← h i hx, e]
  | case4 i e => intro hx; rw [Imap.many0.eq_def q, ← h i hx, e]
  | case5 i k e => intro hx; rw [Imap.many0.eq_def q, ← h i hx, e]

theorem Agree.many1 {L : Nat} {p q : P α} [Nice p] (h : Agree L p q) : Agree L (many1 p) (many1 q) :=
  Agree.bind h fun _ => Agree.bind (Agree.many0 h) fun _ => Agree.refl _

theorem bodyStep_congr {n : Nat} {m m' p p' : P BodyStructure} [Nice m] [Nice p] {x : Bytes}
    (hm : ∀ z, z.length < x.length → m z = m' z) (hp : ∀ z, z.length < x.length → p z = p' z) :
    bodyStep n m p x = bodyStep n m' p' x := by
  unfold bodyStep
  split
  · rfl
  · rcases x with _ | ⟨c, x⟩
    · rfl
    · have hm' : Agree x.length m m' := fun z hz => hm z (by simp; omega)
      have hp' : Agree x.length p p' := fun z hz => hp z (by simp; omega)
      simp only [P.bind_apply, tag]
      split
      · simp only [Res.andThen_ok]
        have : Agree x.length (alt [bodyType1part (n - 1) m, bodyTypeMpart (n - 1) p])
            (alt [bodyType1part (n - 1) m', bodyTypeMpart (n - 1) p']) := by
          refine Agree.alt_cons ?_ (Agree.alt_cons ?_ (Agree.refl _))
          · unfold bodyType1part
            split
            · exact Agree.refl _
            · refine Agree.bind (Agree.alt_cons ?_ (Agree.refl _)) fun _ => Agree.refl _
              unfold bodyTypeMsg
              refine Agree.bind (Agree.refl _) fun _ => Agree.bind (Agree.refl _) fun _ => Agree.bind (Agree.refl _) fun _ =>
                Agree.bind (Agree.refl _) fun _ => Agree.bind (Agree.refl _) fun _ => Agree.bind (Agree.refl _) fun _ =>
                Agree.bind hm' fun _ => Agree.refl _
          · unfold bodyTypeMpart
            split
            · exact Agree.refl _
            · exact Agree.bind (Agree.many1 hp') fun _ => Agree.refl _
        exact Agree.bind this (fun _ => Agree.refl _) x (Nat.le_refl _)
      · rfl

theorem bodyFuel_stable (f n : Nat) (x : Bytes) (h : x.length < f) : bodyFuel f n x = body n x := by
  have key : ∀ f n (x : Bytes), x.length < f → bodyFuel (f + 1) n x = bodyFuel f n x := by
    intro f
    induction f with
    | zero => intro n x h; omega
    | succ f ih =>
      intro n x h
      rw [bodyFuel, bodyFuel.eq_2 n f]
      exact bodyStep_congr (fun z hz => ih 7 z (by omega)) (fun z hz => ih (n - 1) z (by omega))
  unfold body
  induction f with
  | zero => omega
  | succ f ih =>
    by_cases h' : x.length < f
    · rw [key f n x h', ih h']
    · have : f = x.length := by omega
      rw [this]

/-- The recursion of the code (imap-codec/src/body.rs:33-51): the fuel does not matter. -/
theorem body_eq (n : Nat) : body n = bodyStep n (body 7) (body (n - 1)) := by
  funext x
  show bodyFuel (x.length + 1) n x = _
  rw [bodyFuel]
  exact bodyStep_congr (fun z hz => bodyFuel_stable _ _ _ hz) (fun z hz => bodyFuel_stable _ _ _ hz)

instance (n : Nat) : Nice (body n) where
  ok {x r v} h y := by
    rw [← bodyFuel_stable ((x ++ y).length + 1) n x (by simp; omega)] at h
    rw [← bodyFuel_stable ((x ++ y).length + 1) n (x ++ y) (by simp)]
    exact Nice.ok h y
  err {x} h y := by
    rw [← bodyFuel_stable ((x ++ y).length + 1) n x (by simp; omega)] at h
    rw [← bodyFuel_stable ((x ++ y).length + 1) n (x ++ y) (by simp)]
    exact Nice.err h y
  fail {x k} h hk y := by
    rw [← bodyFuel_stable ((x ++ y).length + 1) n x (by simp; omega)] at h
    rw [← bodyFuel_stable ((x ++ y).length + 1) n (x ++ y) (by simp)]
    exact Nice.fail h hk y
  suf {x r v} h := Nice.suf (p := bodyFuel (x.length + 1) n) h
  lit {x t n' m} h := Nice.lit (p := bodyFuel (x.length + 1) n) h
  more {x t n' m} h d hd hl := by
    rw [← bodyFuel_stable ((x ++ d).length + 1) n x (by simp; omega)] at h
    rw [← bodyFuel_stable ((x ++ d).length + 1) n (x ++ d) (by simp)]
    exact Nice.more h d hd hl

/-! ### Postconditions -/

omit [Quirks] in
theorem isOpt_iff {f : α → Bool} {o : Option α} : isOpt f o = true ↔ ∀ a, o = some a → f a = true := by
  cases o <;> simp [isOpt]

theorem isParams_iff {l : Params} : isParams l = true ↔ ∀ x ∈ l, x.1.valid = true ∧ x.2.valid = true := by
  simp [isParams]

instance : Canon addressParen fun v => v.valid = true := ⟨by
  unfold addressParen
  refine Post.bind fun _ _ => Post.bind fun a ha => Post.bind fun _ _ => Post.bind fun b hb => Post.bind fun _ _ =>
    Post.bind fun c hc => Post.bind fun _ _ => Post.bind fun d hd => Post.bind fun _ _ => Post.pure ?_
  simp [Address.valid, ha, hb, hc, hd]⟩

instance : Canon address fun v => v.valid = true := ⟨by
  unfold address
  exact Post.ite (fun _ => Post.bind fun _ _ => Post.canon fun _ h => h) (fun _ => Post.canon fun _ h => h)⟩

instance : Canon envAddresses fun l => ∀ v ∈ l, v.valid = true := ⟨by
  unfold envAddresses
  refine Post.alt_cons (Post.bind fun _ _ => Post.bind fun l hl => Post.bind fun _ _ => Post.pure hl.2) (Post.alt_cons ?_ Post.alt_nil)
  exact Post.value (by simp)⟩

instance : Canon envelope fun v => v.valid = true := ⟨by
  unfold envelope
  refine Post.bind fun _ _ => Post.bind fun a ha => Post.bind fun _ _ => Post.bind fun b hb => Post.bind fun _ _ =>
    Post.bind fun c hc => Post.bind fun _ _ => Post.bind fun d hd => Post.bind fun _ _ => Post.bind fun e he =>
    Post.bind fun _ _ => Post.bind fun f hf => Post.bind fun _ _ => Post.bind fun g hg => Post.bind fun _ _ =>
    Post.bind fun h hh => Post.bind fun _ _ => Post.bind fun i hi => Post.bind fun _ _ => Post.bind fun j hj =>
    Post.bind fun _ _ => Post.pure ?_
  simp only [Envelope.valid, Bool.and_eq_true, List.all_eq_true]
  exact ⟨⟨⟨⟨⟨⟨⟨⟨⟨ha, hb⟩, hc⟩, hd⟩, he⟩, hf⟩, hg⟩, hh⟩, hi⟩, hj⟩⟩

theorem BodyExtension.valid_go {l : List BodyExtension} : BodyExtension.valid.go l = true ↔ ∀ e ∈ l, e.valid = true := by
  induction l with
  | nil => simp [BodyExtension.valid.go]
  | cons e l ih => simp [BodyExtension.valid.go, ih]

omit [Quirks] in
theorem BodyExtension.depth_go {l : List BodyExtension} {n : Nat} : BodyExtension.depth.go l ≤ n ↔ ∀ e ∈ l, e.depth ≤ n := by
  induction l with
  | nil => simp [BodyExtension.depth.go]
  | cons e l ih =>
    simp only [BodyExtension.depth.go, List.mem_cons, forall_eq_or_imp, ← ih]
    omega

omit [Quirks] in
theorem BodyExtension.enc_go (l : List BodyExtension) : BodyExtension.enc.go l = l.map BodyExtension.enc := by
  induction l with
  | nil => rfl
  | cons e l ih => simp [BodyExtension.enc.go, ih]

theorem bodyExtension_post (n : Nat) : Post (bodyExtension n) fun e => e.valid = true ∧ e.depth ≤ n := by
  induction n with
  | zero => unfold bodyExtension; exact Post.failure
  | succ n ih =>
    have : Canon (bodyExtension n) _ := ⟨ih⟩
    unfold bodyExtension
    refine Post.alt_cons (Post.map (Post.canon fun v hv => ⟨hv, by simp [BodyExtension.depth]⟩)) (Post.alt_cons
      (Post.map (Post.canon fun v hv => ⟨by simpa [BodyExtension.valid] using hv, by simp [BodyExtension.depth]⟩)) (Post.alt_cons
      (Post.map (Post.bind fun _ _ => Post.bind fun l hl => Post.bind fun _ _ => Post.pure ?_)) Post.alt_nil))
    simp only [BodyExtension.valid, BodyExtension.depth, Bool.and_eq_true, Nat.add_le_add_iff_right, BodyExtension.valid_go,
      BodyExtension.depth_go]
    exact ⟨⟨by simpa using hl.1, fun e he => (hl.2 e he).1⟩, fun e he => (hl.2 e he).2⟩

instance (n : Nat) : Canon (bodyExtension n) fun e => e.valid = true ∧ e.depth ≤ n := ⟨bodyExtension_post n⟩

instance : Canon fldParam fun v => v.1.valid = true ∧ v.2.valid = true := ⟨by
  unfold fldParam
  exact Post.bind fun _ h => Post.bind fun _ _ => Post.bind fun _ h' => Post.pure ⟨h, h'⟩⟩

instance : Canon bodyFldParam fun v => isParams v = true := ⟨by
  unfold bodyFldParam
  refine Post.alt_cons (Post.bind fun _ _ => Post.bind fun l hl => Post.bind fun _ _ => Post.pure (isParams_iff.2 hl))
    (Post.alt_cons (Post.value rfl) Post.alt_nil)⟩

instance : Canon bodyFldEnc fun v => v.valid = true := ⟨by
  unfold bodyFldEnc
  refine Post.ite (fun _ => Post.map (Post.canon fun v hv => ?_)) (fun _ => Post.canon fun _ h => h)
  cases v with
  | none => rfl
  | some s => exact hv⟩

instance : Canon bodyFldOctets fun v => v < 4294967296 := ⟨by
  unfold bodyFldOctets
  refine Post.ite (fun _ => ?_) (fun _ => Post.canon fun _ h => h)
  exact Post.alt_cons (Post.canon fun _ h => h) (Post.alt_cons (Post.bind fun _ _ => Post.value (by simp)) Post.alt_nil)⟩

instance : Canon bodyFldDsp fun v => isOpt (fun d => d.1.valid && isParams d.2) v = true := ⟨by
  unfold bodyFldDsp
  refine Post.alt_cons (Post.bind fun _ _ => Post.bind fun s hs => Post.bind fun _ _ => Post.bind fun ps hps =>
    Post.bind fun _ _ => Post.pure ?_) (Post.alt_cons (Post.value rfl) Post.alt_nil)
  simp [isOpt, hs, hps]⟩

instance : Canon bodyFldLang fun l => ∀ v ∈ l, v.valid = true := ⟨by
  unfold bodyFldLang
  refine Post.alt_cons (Post.map (Post.canon fun v hv => ?_)) (Post.alt_cons (Post.bind fun _ _ => Post.bind fun l hl =>
    Post.bind fun _ _ => Post.pure hl.2) Post.alt_nil)
  cases v with
  | none => simp
  | some s =>
    have : s.valid = true := hv
    simpa using this⟩

instance : Canon extLocation fun v => v.valid = true := ⟨by
  unfold extLocation
  refine Post.bind fun _ _ => Post.bind fun a ha => Post.bind fun l hl => Post.pure ?_
  simp only [Location.valid, Bool.and_eq_true, List.all_eq_true, decide_eq_true_eq]
  exact ⟨ha, hl⟩⟩

instance : Canon extLanguage fun v => v.valid = true := ⟨by
  unfold extLanguage
  refine Post.bind fun _ _ => Post.bind fun a ha => Post.bind fun l hl => Post.pure ?_
  simp only [Language.valid, Bool.and_eq_true, List.all_eq_true]
  exact ⟨ha, isOpt_iff.2 hl⟩⟩

instance : Canon extDisposition fun v => v.valid = true := ⟨by
  unfold extDisposition
  refine Post.bind fun _ _ => Post.bind fun a ha => Post.bind fun l hl => Post.pure ?_
  simp only [Disposition.valid, Bool.and_eq_true]
  exact ⟨ha, isOpt_iff.2 hl⟩⟩

instance : Canon bodyExt1part fun v => v.valid = true := ⟨by
  unfold bodyExt1part
  refine Post.bind fun a ha => Post.bind fun l hl => Post.pure ?_
  simp only [SinglePartExt.valid, Bool.and_eq_true]
  exact ⟨ha, isOpt_iff.2 hl⟩⟩

instance : Canon bodyExtMpart fun v => v.valid = true := ⟨by
  unfold bodyExtMpart
  refine Post.bind fun a ha => Post.bind fun l hl => Post.pure ?_
  simp only [MultiPartExt.valid, Bool.and_eq_true]
  exact ⟨ha, isOpt_iff.2 hl⟩⟩

instance : Canon bodyFields fun v => v.valid = true := ⟨by
  unfold bodyFields
  refine Post.bind fun a ha => Post.bind fun _ _ => Post.bind fun b hb => Post.bind fun _ _ => Post.bind fun c hc =>
    Post.bind fun _ _ => Post.bind fun d hd => Post.bind fun _ _ => Post.bind fun e he => Post.pure ?_
  simp only [BasicFields.valid, Bool.and_eq_true, decide_eq_true_eq]
  exact ⟨⟨⟨⟨ha, hb⟩, hc⟩, hd⟩, he⟩⟩

theorem BodyStructure.valid_go {l : List BodyStructure} : BodyStructure.valid.go l = true ↔ ∀ e ∈ l, e.valid = true := by
  induction l with
  | nil => simp [BodyStructure.valid.go]
  | cons e l ih => simp [BodyStructure.valid.go, ih]

omit [Quirks] in
theorem BodyStructure.need_go {l : List BodyStructure} {n : Nat} : BodyStructure.need.go l ≤ n ↔ ∀ e ∈ l, e.need ≤ n := by
  induction l with
  | nil => simp [BodyStructure.need.go]
  | cons e l ih =>
    simp only [BodyStructure.need.go, List.mem_cons, forall_eq_or_imp, ← ih]
    omega

omit [Quirks] in
theorem BodyStructure.enc_go (l : List BodyStructure) : BodyStructure.enc.go l = l.flatMap BodyStructure.enc := by
  induction l with
  | nil => rfl
  | cons e l ih => simp [BodyStructure.enc.go, ih]

theorem bodyStep_post {n : Nat} {m p : P BodyStructure} (hm : Post m fun b => b.valid = true ∧ b.need ≤ 7)
    (hp : Post p fun b => b.valid = true ∧ b.need ≤ n - 1) :
    Post (bodyStep n m p) fun b => b.valid = true ∧ b.need ≤ n := by
  have : Canon m _ := ⟨hm⟩
  have : Canon p _ := ⟨hp⟩
  unfold bodyStep
  refine Post.ite (fun _ => Post.failure) (fun hn => Post.bind fun _ _ => ?_)
  have : Canon (alt [bodyType1part (n - 1) m, bodyTypeMpart (n - 1) p]) fun b => b.valid = true ∧ b.need ≤ n := ⟨by
    refine Post.alt_cons ?_ (Post.alt_cons ?_ Post.alt_nil)
    · unfold bodyType1part
      refine Post.ite (fun _ => Post.failure) (fun hn' => ?_)
      have : Canon (alt [bodyTypeMsg m, bodyTypeText, bodyTypeBasic]) fun x : BasicFields × SpecificFields BodyStructure =>
          (BodyStructure.single x.1 none x.2).valid = true := ⟨by
        refine Post.alt_cons ?_ (Post.alt_cons ?_ (Post.alt_cons ?_ Post.alt_nil))
        · unfold bodyTypeMsg
          refine Post.bind fun _ _ => Post.bind fun _ _ => Post.bind fun f hf => Post.bind fun _ _ => Post.bind fun e he =>
            Post.bind fun _ _ => Post.bind fun b hb => Post.bind fun _ _ => Post.bind fun k hk => Post.pure ?_
          simp [BodyStructure.single, BodyStructure.valid, hf, he, hb, hk, isOpt]
        · unfold bodyTypeText
          refine Post.bind fun _ _ => Post.bind fun s hs => Post.bind fun _ _ => Post.bind fun f hf => Post.bind fun _ _ =>
            Post.bind fun k hk => Post.pure ?_
          simp [BodyStructure.single, BodyStructure.valid, hf, hs, hk, isOpt]
        · unfold bodyTypeBasic
          refine Post.bind fun t ht => Post.bind fun _ _ => Post.bind fun s hs => Post.bind fun _ _ => Post.bind fun f hf =>
            Post.pure ?_
          simp [BodyStructure.single, BodyStructure.valid, hf, hs, ht, isOpt]⟩
      refine Post.bind fun x hx => Post.bind fun ext hext => Post.pure ?_
      have h2 : isOpt SinglePartExt.valid ext = true := isOpt_iff.2 hext
      obtain ⟨f, s⟩ := x
      cases s <;> simp only [BodyStructure.single, BodyStructure.valid, BodyStructure.need, Bool.and_eq_true] at hx ⊢ <;>
        exact ⟨⟨hx.1, h2⟩, by omega⟩
    · unfold bodyTypeMpart
      refine Post.ite (fun _ => Post.failure) (fun hn' => Post.bind fun l hl => Post.bind fun _ _ => Post.bind fun s hs =>
        Post.bind fun x hx => Post.pure ?_)
      simp only [BodyStructure.valid, BodyStructure.need, Bool.and_eq_true]
      refine ⟨⟨⟨⟨by simpa using hl.1, BodyStructure.valid_go.2 fun e he => (hl.2 e he).1⟩, hs⟩, isOpt_iff.2 hx⟩, ?_⟩
      have := BodyStructure.need_go.2 fun e he => (hl.2 e he).2
      omega⟩
  exact Post.bind fun b hb => Post.bind fun _ _ => Post.pure hb

theorem bodyFuel_post (f n : Nat) : Post (bodyFuel f n) fun b => b.valid = true ∧ b.need ≤ n := by
  induction f generalizing n with
  | zero => intro x r v e; simp [bodyFuel] at e
  | succ f ih => exact bodyStep_post (ih 7) (ih (n - 1))

instance (n : Nat) : Canon (body n) fun b => b.valid = true ∧ b.need ≤ n := ⟨fun x r v e => bodyFuel_post _ _ x r v e⟩

end

end Imap
