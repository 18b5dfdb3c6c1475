import Verif.SerdeSpec
/-
Laws of the combinators of Verif/Serde.lean: on which values serializing and deserializing gives the same value again, and which values
are the result of deserialization.
-/
set_option maxRecDepth 10000

namespace Imap.Serde

open Imap Imap.Spec

variable {α β : Type}

/-- The values with the property `P` are those that can be deserialized, and they survive serialization. -/
class Lawful (s : S α) (P : outParam (α → Prop)) : Prop where
  rt : ∀ a, P a → s.de (s.ser a) = some a
  sound : ∀ v a, s.de v = some a → P a
  missing : ∀ a, s.missing = some a → P a

/-- Null is not deserialized. -/
class NotNull (s : S α) : Prop where
  null : s.de .null = none

theorem Lawful.of {s : S α} {P Q : α → Prop} (h : Lawful s P) (e : ∀ a, P a ↔ Q a) : Lawful s Q where
  rt a ha := h.rt a ((e a).2 ha)
  sound v a hv := (e a).1 (h.sound v a hv)
  missing a ha := (e a).1 (h.missing a ha)

theorem Lawful.via (s : S α) {P Q : α → Prop} [h : Lawful s P] (e : ∀ a, P a ↔ Q a) : Lawful s Q := h.of e

theorem Lawful.read_rt {s : S α} {P : α → Prop} [h : Lawful s P] {a : α} (ha : P a) : s.read (some (s.ser a)) = some a := h.rt a ha

theorem Lawful.read_sound {s : S α} {P : α → Prop} [h : Lawful s P] {c : Option Value} {a : α} (ha : s.read c = some a) : P a := by
  cases c with
  | none => exact h.missing a ha
  | some v => exact h.sound v a ha

instance : Lawful bool fun _ => True where
  rt _ _ := rfl
  sound _ _ _ := trivial
  missing _ _ := trivial

instance (lo hi : Nat) : Lawful (uint lo hi) fun n => lo ≤ n ∧ n ≤ hi where
  rt n h := by simp [uint, h]
  sound v n h := by
    cases v <;> simp [uint] at h
    obtain ⟨h, rfl⟩ := h
    exact h
  missing _ h := nomatch h

theorem le32 (n : Nat) : 0 ≤ n ∧ n ≤ 4294967295 ↔ n < 2 ^ 32 := by omega
theorem le64 (n : Nat) : 0 ≤ n ∧ n ≤ 18446744073709551615 ↔ n < 2 ^ 64 := by omega

instance : Lawful u32 fun n => n < 2 ^ 32 := Lawful.via (uint 0 4294967295) le32
instance : Lawful u64 fun n => n < 2 ^ 64 := Lawful.via (uint 0 18446744073709551615) le64
instance : Lawful nz32 NZ32 := Lawful.via (uint 1 4294967295) fun n => by unfold NZ32; omega
instance : Lawful nz64 NZ64 := Lawful.via (uint 1 18446744073709551615) fun n => by unfold NZ64; omega

instance : Lawful string fun s => isUtf8 s = true where
  rt s h := by simp [string, h]
  sound v s h := by
    cases v <;> simp [string] at h
    obtain ⟨h, rfl⟩ := h
    exact h
  missing _ h := nomatch h

instance : Lawful unit fun _ => True where
  rt _ _ := rfl
  sound _ _ _ := trivial
  missing _ _ := trivial

instance (s : S α) {P : α → Prop} [h : Lawful s P] [hn : NotNull s] : Lawful (opt s) (Opt P) where
  rt o ho := by
    cases o with
    | none => rfl
    | some a =>
      have ha := h.rt a (ho a rfl)
      have hn := hn.null
      simp only [opt]
      cases hv : s.ser a <;> rw [hv] at ha <;> simp_all
  sound v o hv a ha := by
    cases ha
    cases v <;> simp [opt] at hv <;> exact h.sound _ _ hv
  missing o ho a ha := by
    cases ho
    cases ha

theorem mapM_some {f : α → Option β} : ∀ {l : List α} {r : List β}, l.mapM f = some r → ∀ b ∈ r, ∃ a ∈ l, f a = some b
  | [], r, h => by
    cases h
    simp
  | a :: l, r, h => by
    simp only [List.mapM_cons, Option.bind_eq_bind, Option.pure_def, Option.bind_eq_some_iff, Option.some.injEq] at h
    obtain ⟨b, hb, r', hr, rfl⟩ := h
    intro x hx
    rcases List.mem_cons.1 hx with rfl | hx
    · exact ⟨a, by simp, hb⟩
    · obtain ⟨a', h1, h2⟩ := mapM_some hr x hx
      exact ⟨a', by simp [h1], h2⟩

theorem mapM_map {f : β → Option α} {g : α → β} : ∀ {l : List α}, (∀ a ∈ l, f (g a) = some a) → (l.map g).mapM f = some l
  | [], _ => rfl
  | a :: l, h => by
    rw [List.map_cons, List.mapM_cons, h a (by simp), mapM_map fun x hx => h x (by simp [hx])]
    rfl

instance (s : S α) {P : α → Prop} [h : Lawful s P] : Lawful (list s) (All P) where
  rt l hl := mapM_map fun a ha => h.rt a (hl a ha)
  sound v l hv a ha := by
    cases v <;> simp only [list, reduceCtorEq] at hv
    obtain ⟨w, _, hw⟩ := mapM_some hv a ha
    exact h.sound w a hw
  missing _ h := nomatch h

instance (s : S α) (t : S β) {P : α → Prop} {Q : β → Prop} [hs : Lawful s P] [ht : Lawful t Q] :
    Lawful (pair s t) fun x => P x.1 ∧ Q x.2 where
  rt x hx := by simp [pair, hs.rt _ hx.1, ht.rt _ hx.2]
  sound v x hv := by
    unfold pair at hv
    simp only at hv
    split at hv
    · simp only [Option.bind_eq_bind, Option.pure_def, Option.bind_eq_some_iff, Option.some.injEq] at hv
      obtain ⟨a, ha, b, hb, rfl⟩ := hv
      exact ⟨hs.sound _ _ ha, ht.sound _ _ hb⟩
    · cases hv
  missing _ h := nomatch h

instance : Lawful u8 fun _ => True where
  rt b _ := by
    have := b.toNat_lt
    simp [u8, this]
  sound _ _ _ := trivial
  missing _ _ := trivial

instance : Lawful bytes fun _ => True :=
  Lawful.via (list u8) fun _ => by simp [All]

theorem Lawful.newtype {s : S β} {P : β → Prop} (h : Lawful s P) {mk : β → α} {inner : α → β} {Q : α → Prop}
    (e : ∀ a, mk (inner a) = a) (i : ∀ b, inner (mk b) = b) (q : ∀ a, P (inner a) ↔ Q a) : Lawful (s.newtype mk inner) Q where
  rt a ha := by simp [S.newtype, h.rt _ ((q a).2 ha), e]
  sound v a hv := by
    simp only [S.newtype, Option.map_eq_some_iff] at hv
    obtain ⟨b, hb, rfl⟩ := hv
    rw [← q, i]
    exact h.sound v b hb
  missing _ h := nomatch h

instance (s : S α) {P : α → Prop} [h : Lawful s P] : Lawful (s.newtype id id) P :=
  h.newtype (fun _ => rfl) (fun _ => rfl) fun _ => Iff.rfl

instance (s : S α) {P : α → Prop} {check : α → Bool} [h : Lawful s P] : Lawful (s.tryFrom check) fun a => P a ∧ check a = true where
  rt a ha := by simp [S.tryFrom, h.rt _ ha.1, Option.filter, ha.2]
  sound v a hv := by
    simp only [S.tryFrom, Option.filter_eq_some_iff] at hv
    exact ⟨h.sound v a hv.1, hv.2⟩
  missing _ h := nomatch h

instance (n : Nat) (s : S α) {P : α → Prop} [h : Lawful s P] : Lawful (vec n s) fun l => All P l ∧ n ≤ l.length :=
  Lawful.via ((list s).tryFrom fun l => decide (_ ≤ l.length)) fun l => by simp

instance vec1 (s : S α) {P : α → Prop} [h : Lawful s P] : Lawful (vec 1 s) (All1 P) :=
  Lawful.via ((list s).tryFrom fun l => decide (_ ≤ l.length)) fun l => by
    cases l <;> simp [All, All1]

/-! ### Structs -/

/-- The laws of the fields of a struct. -/
class LawfulF (fs : Fields β) (P : outParam (β → Prop)) : Prop where
  length : ∀ b, (fs.ser b).length = fs.names.length
  rt : ∀ b, P b → fs.de ((fs.ser b).map some) = some b
  sound : ∀ l b, fs.de l = some b → P b

instance (n : Bytes) (s : S α) {P : α → Prop} [h : Lawful s P] : LawfulF (.one n s) P where
  length _ := rfl
  rt b hb := h.rt b hb
  sound l b hl := by
    simp only [Fields.one] at hl
    split at hl
    · exact h.read_sound hl
    · cases hl

instance (n : Bytes) (s : S α) (fs : Fields β) {P : α → Prop} {Q : β → Prop} [h : Lawful s P] [hf : LawfulF fs Q] :
    LawfulF (.cons n s fs) fun x => P x.1 ∧ Q x.2 where
  length b := by simp [Fields.cons, hf.length]
  rt b hb := by simp [Fields.cons, S.read, h.rt _ hb.1, hf.rt _ hb.2]
  sound l b hl := by
    simp only [Fields.cons] at hl
    split at hl
    · simp only [Option.bind_eq_bind, Option.pure_def, Option.bind_eq_some_iff, Option.some.injEq] at hl
      obtain ⟨a, ha, b, hb, rfl⟩ := hl
      exact ⟨h.read_sound ha, hf.sound _ _ hb⟩
    · cases hl

theorem mapM_congr {f g : α → Option β} : ∀ {l : List α}, (∀ a ∈ l, f a = g a) → l.mapM f = l.mapM g
  | [], _ => rfl
  | a :: l, h => by rw [List.mapM_cons, List.mapM_cons, h a (by simp), mapM_congr fun x hx => h x (by simp [hx])]

theorem filter_zip_not_mem {n : Bytes} : ∀ {ns : List Bytes} {vs : List Value}, n ∉ ns → (ns.zip vs).filter (fun x => x.1 == n) = []
  | [], _, _ => rfl
  | _ :: _, [], _ => rfl
  | m :: ns, v :: vs, h => by
    have hm : m ≠ n := by
      rintro rfl
      simp at h
    have := filter_zip_not_mem (n := n) (ns := ns) (vs := vs) (by simp_all)
    simp [List.zip_cons_cons, hm, this]

theorem find_zip {n : Bytes} {v : Value} {ns : List Bytes} {vs : List Value} (h : n ∉ ns) : find ((n :: ns).zip (v :: vs)) n = some (some v) := by
  simp [find, filter_zip_not_mem h]

theorem find_cons {n m : Bytes} {v : Value} {l : List (Bytes × Value)} (h : m ≠ n) : find ((m, v) :: l) n = find l n := by
  simp [find, h]

theorem collect_zip : ∀ {ns : List Bytes} {vs : List Value}, ns.Nodup → vs.length = ns.length →
    ns.mapM (find (ns.zip vs)) = some (vs.map some)
  | [], [], _, _ => rfl
  | n :: ns, v :: vs, h, hl => by
    have hn := (List.nodup_cons.1 h).1
    have ih := collect_zip (ns := ns) (vs := vs) (List.nodup_cons.1 h).2 (by simpa using hl)
    have hc : ns.mapM (find ((n :: ns).zip (v :: vs))) = ns.mapM (find (ns.zip vs)) := by
      refine mapM_congr fun m hm => ?_
      rw [List.zip_cons_cons]
      exact find_cons fun e => hn (e ▸ hm)
    rw [List.mapM_cons, find_zip hn, hc, ih]
    rfl

/-- The names of the fields are different. -/
class Distinct (fs : Fields β) : Prop where
  nodup : fs.names.Nodup

instance (fs : Fields β) {P : β → Prop} [h : LawfulF fs P] [hd : Distinct fs] : Lawful (record fs) P where
  rt b hb := by
    simp only [record, collect]
    rw [collect_zip hd.nodup (h.length b)]
    exact h.rt b hb
  sound v b hv := by
    simp only [record, Option.bind_eq_some_iff] at hv
    obtain ⟨l, _, hl⟩ := hv
    exact h.sound l b hl
  missing _ h := nomatch h

/-! ### Enums -/

theorem untag_rt {vs : List (Variant α)} {n : Bytes} {c : Option Value} {x : Variant α} {a : α}
    (hx : vs.find? (fun x => x.name == n) = some x) (ha : x.de c = some a) : untag vs (tagged (n, c)) = some a := by
  cases c with
  | none =>
    have : collect [b!"type", b!"content"] (tagged (n, none)) = some [some (.str n), none] := rfl
    simp [untag, this, hx, ha]
  | some v =>
    have : collect [b!"type", b!"content"] (tagged (n, some v)) = some [some (.str n), some v] := rfl
    simp [untag, this, hx, ha]

theorem untag_sound {vs : List (Variant α)} {P : α → Prop} (h : ∀ x ∈ vs, ∀ c a, x.de c = some a → P a) {v : Value} {a : α}
    (hv : untag vs v = some a) : P a := by
  unfold untag at hv
  split at hv
  · obtain ⟨x, hx, ha⟩ := Option.bind_eq_some_iff.1 hv
    exact h x (List.mem_of_find?_eq_some hx) _ _ ha
  · cases hv

theorem of_rt {n : Bytes} {s : S β} {P : β → Prop} [h : Lawful s P] {mk : β → α} {b : β} (hb : P b) :
    (Variant.of n s mk).de (some (s.ser b)) = some (mk b) := by
  simp [Variant.of, h.read_rt hb]

theorem unit_sound {n : Bytes} {P : α → Prop} {a : α} (h : P a) : ∀ c b, (Variant.unit n a).de c = some b → P b := by
  intro c b hb
  simp only [Variant.unit] at hb
  split at hb <;> simp_all

theorem of_sound {n : Bytes} {s : S β} {P : β → Prop} [h : Lawful s P] {mk : β → α} {Q : α → Prop} (hb : ∀ b, P b → Q (mk b)) :
    ∀ c a, (Variant.of n s mk).de c = some a → Q a := by
  intro c a ha
  simp only [Variant.of, Option.map_eq_some_iff] at ha
  obtain ⟨b, hr, rfl⟩ := ha
  exact hb b (h.read_sound hr)

theorem Lawful.enum {ser : α → Bytes × Option Value} {vs : List (Variant α)} {P : α → Prop}
    (rt : ∀ a, P a → untag vs (tagged (ser a)) = some a) (sound : ∀ x ∈ vs, ∀ c a, x.de c = some a → P a) : Lawful (enum ser vs) P where
  rt := rt
  sound _ _ := untag_sound sound
  missing _ h := nomatch h

theorem Lawful.names {ser : α → Bytes} {vs : List (Bytes × α)}
    (rt : ∀ a, (vs.find? (fun x => x.1 == ser a)).map (·.2) = some a) : Lawful (names ser vs) fun _ => True where
  rt a _ := rt a
  sound _ _ _ := trivial
  missing _ _ := trivial

instance (ser : α → Bytes × Option Value) (vs : List (Variant α)) : NotNull (enum ser vs) := ⟨rfl⟩
instance (ser : α → Bytes) (vs : List (Bytes × α)) : NotNull (names ser vs) := ⟨rfl⟩
instance (fs : Fields β) : NotNull (record fs) := ⟨rfl⟩
instance (s : S α) : NotNull (list s) := ⟨rfl⟩
instance (s : S α) (t : S β) : NotNull (pair s t) := ⟨rfl⟩
instance : NotNull string := ⟨rfl⟩
instance (lo hi : Nat) : NotNull (uint lo hi) := ⟨rfl⟩
instance (s : S β) (mk : β → α) (inner : α → β) [h : NotNull s] : NotNull (s.newtype mk inner) := ⟨by simp [S.newtype, h.null]⟩
instance (s : S α) (check : α → Bool) [h : NotNull s] : NotNull (s.tryFrom check) := ⟨by simp [S.tryFrom, h.null]⟩

end Imap.Serde
