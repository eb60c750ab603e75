import Verif.Spec.TypeDict
/-!
# Types: the same type with more elements
-/
namespace Verif.TDict
open Verif.Meta (Auid Name get put)
open Verif.Types
open Verif.Utf16 (Str)
open Verif.Spec.TDict

variable {lower : Str → Str} {κ : Type} [DecidableEq κ]

theorem Finds.refl (norm : Str → Str) (l : List (κ × Str)) : Finds norm l l := ⟨fun _ _ h => h, fun _ _ h => h⟩

theorem Finds.trans {norm : Str → Str} {l m r : List (κ × Str)} (h : Finds norm l m) (g : Finds norm m r) : Finds norm l r :=
  ⟨fun k e x => g.1 k e (h.1 k e x), fun s k x => g.2 s k (h.2 s k x)⟩

theorem Finds.prefix (norm : Str → Str) (l m : List (κ × Str)) : Finds norm l (l ++ m) := by
  refine ⟨fun k e h => by rw [List.find?_append, h]; rfl, fun s k h => ?_⟩
  rw [List.find?_append]
  cases hf : l.find? fun e => norm e.2 = norm s with
  | none => rw [hf] at h; simp at h
  | some e => rw [hf] at h; simpa using h

theorem find_unique {α β : Type} [DecidableEq β] {f : α → β} {l : List α} (h : (l.map f).Nodup) {e : α} (he : e ∈ l) : l.find? (fun x => f x = f e) = some e := by
  induction l with
  | nil => cases he
  | cons x l ih =>
    simp only [List.map_cons, List.nodup_cons] at h
    rcases List.mem_cons.1 he with rfl | he
    · simp
    · have : f x ≠ f e := fun h' => h.1 (h' ▸ List.mem_map.2 ⟨e, he, rfl⟩)
      simp only [List.find?_cons, this, decide_false]
      exact ih h.2 he

/-- More elements, none twice. -/
theorem Finds.of_subset {norm : Str → Str} {l m : List (κ × Str)} (hs : ∀ e ∈ l, e ∈ m) (hc : Clean norm m) : Finds norm l m := by
  refine ⟨fun k e h => ?_, fun s k h => ?_⟩
  · have h1 := List.find?_some h
    simp only [decide_eq_true_eq] at h1
    have := find_unique hc.1 (hs e (List.mem_of_find?_eq_some h))
    rw [← h1]; exact this
  · cases hf : l.find? fun e => norm e.2 = norm s with
    | none => rw [hf] at h; simp at h
    | some e =>
      rw [hf] at h
      have h1 := List.find?_some hf
      simp only [decide_eq_true_eq] at h1
      have := find_unique hc.2 (hs e (List.mem_of_find?_eq_some hf))
      rw [← h1, this]; exact h

mutual
theorem Wider.refl (lower : Str → Str) : (t : Ty) → Wider lower t t
  | .enum s g els => ⟨els, rfl, Finds.refl _ _⟩
  | .extEnum els => ⟨els, rfl, Finds.refl _ _⟩
  | .fixed t n => ⟨t, rfl, Wider.refl lower t⟩
  | .var t => ⟨t, rfl, Wider.refl lower t⟩
  | .set t => ⟨t, rfl, Wider.refl lower t⟩
  | .rename t => ⟨t, rfl, Wider.refl lower t⟩
  | .record fs => ⟨fs, rfl, WiderF.refl lower fs⟩
  | .int _ _ => rfl
  | .bool => rfl
  | .strArray _ => rfl
  | .str => rfl
  | .mobid => rfl
  | .auid => rfl
  | .rational => rfl
  | .date => rfl
  | .time => rfl
  | .stamp => rfl
theorem WiderF.refl (lower : Str → Str) : (fs : Fields) → WiderF lower fs fs
  | .nil => rfl
  | .cons _ t rest => ⟨t, rest, rfl, Wider.refl lower t, WiderF.refl lower rest⟩
end

mutual
theorem Wider.trans : (t : Ty) → {u v : Ty} → Wider lower t u → Wider lower u v → Wider lower t v
  | .enum s g els, _, _, ⟨_, rfl, h⟩, ⟨_, rfl, h'⟩ => ⟨_, rfl, Finds.trans h h'⟩
  | .extEnum els, _, _, ⟨_, rfl, h⟩, ⟨_, rfl, h'⟩ => ⟨_, rfl, Finds.trans h h'⟩
  | .fixed t n, _, _, ⟨_, rfl, h⟩, ⟨_, rfl, h'⟩ => ⟨_, rfl, Wider.trans t h h'⟩
  | .var t, _, _, ⟨_, rfl, h⟩, ⟨_, rfl, h'⟩ => ⟨_, rfl, Wider.trans t h h'⟩
  | .set t, _, _, ⟨_, rfl, h⟩, ⟨_, rfl, h'⟩ => ⟨_, rfl, Wider.trans t h h'⟩
  | .rename t, _, _, ⟨_, rfl, h⟩, ⟨_, rfl, h'⟩ => ⟨_, rfl, Wider.trans t h h'⟩
  | .record fs, _, _, ⟨_, rfl, h⟩, ⟨_, rfl, h'⟩ => ⟨_, rfl, WiderF.trans fs h h'⟩
  | .int _ _, _, _, h, h' => by rw [Wider] at h; subst h; exact h'
  | .bool, _, _, h, h' => by rw [Wider] at h; subst h; exact h'
  | .strArray _, _, _, h, h' => by rw [Wider] at h; subst h; exact h'
  | .str, _, _, h, h' => by rw [Wider] at h; subst h; exact h'
  | .mobid, _, _, h, h' => by rw [Wider] at h; subst h; exact h'
  | .auid, _, _, h, h' => by rw [Wider] at h; subst h; exact h'
  | .rational, _, _, h, h' => by rw [Wider] at h; subst h; exact h'
  | .date, _, _, h, h' => by rw [Wider] at h; subst h; exact h'
  | .time, _, _, h, h' => by rw [Wider] at h; subst h; exact h'
  | .stamp, _, _, h, h' => by rw [Wider] at h; subst h; exact h'
theorem WiderF.trans : (fs : Fields) → {gs hs : Fields} → WiderF lower fs gs → WiderF lower gs hs → WiderF lower fs hs
  | .nil, _, _, h, h' => by rw [WiderF] at h; subst h; exact h'
  | .cons _ t rest, _, _, ⟨_, _, rfl, h, g⟩, ⟨_, _, rfl, h', g'⟩ => ⟨_, _, rfl, Wider.trans t h h', WiderF.trans rest g g'⟩
end

mutual
theorem Wider.size : (t : Ty) → {u : Ty} → Wider lower t u → size u = size t
  | .enum s g els, _, ⟨_, rfl, _⟩ => rfl
  | .extEnum els, _, ⟨_, rfl, _⟩ => rfl
  | .fixed t n, _, ⟨_, rfl, h⟩ => by rw [Types.size, Types.size, Wider.size t h]
  | .var t, _, ⟨_, rfl, _⟩ => rfl
  | .set t, _, ⟨_, rfl, _⟩ => rfl
  | .rename t, _, ⟨_, rfl, _⟩ => rfl
  | .record fs, _, ⟨_, rfl, h⟩ => by rw [Types.size, Types.size, WiderF.size fs h]
  | .int _ _, _, h => by rw [Wider] at h; rw [h]
  | .bool, _, h => by rw [Wider] at h; rw [h]
  | .strArray _, _, h => by rw [Wider] at h; rw [h]
  | .str, _, h => by rw [Wider] at h; rw [h]
  | .mobid, _, h => by rw [Wider] at h; rw [h]
  | .auid, _, h => by rw [Wider] at h; rw [h]
  | .rational, _, h => by rw [Wider] at h; rw [h]
  | .date, _, h => by rw [Wider] at h; rw [h]
  | .time, _, h => by rw [Wider] at h; rw [h]
  | .stamp, _, h => by rw [Wider] at h; rw [h]
theorem WiderF.size : (fs : Fields) → {gs : Fields} → WiderF lower fs gs → sizeFields gs = sizeFields fs
  | .nil, _, h => by rw [WiderF] at h; rw [h]
  | .cons _ t rest, _, ⟨_, _, rfl, h, g⟩ => by rw [sizeFields, sizeFields, Wider.size t h, WiderF.size rest g]
end

theorem Wider.asInt {t u : Ty} (h : Wider lower t u) : asIntTy u = asIntTy t := by
  cases t <;> simp only [Wider] at h <;> first | (subst h; rfl) | (obtain ⟨_, rfl, _⟩ := h; rfl)

theorem bind_ok {α β : Type} {x : Res α} {f : α → Res β} {b : β} (h : (x >>= f) = .ok b) : ∃ a, x = .ok a ∧ f a = .ok b := by
  cases x with
  | error e => exact absurd h (by intro h; cases h)
  | ok a => exact ⟨a, rfl, h⟩

theorem mapM_mono {α β : Type} {f g : α → Res β} {l : List α} (h : ∀ a ∈ l, ∀ b, f a = .ok b → g a = .ok b) {r : List β} (hr : l.mapM f = .ok r) : l.mapM g = .ok r := by
  induction l generalizing r with
  | nil => simpa using hr
  | cons a l ih =>
    rw [List.mapM_cons] at hr ⊢
    obtain ⟨b, h1, h2⟩ := bind_ok hr
    obtain ⟨bs, h3, h4⟩ := bind_ok h2
    rw [h a (by simp) b h1, ih (fun a ha => h a (by simp [ha])) h3]
    exact h4

theorem enumFind_mono {l m : List (Int × Str)} (h : Finds id l m) {v : Val} {i : Int} (hi : enumFind l v = some i) : enumFind m v = some i := by
  have code : ∀ c, (l.find? fun e => e.1 = c).map (·.1) = some i → (m.find? fun e => e.1 = c).map (·.1) = some i := by
    intro c hc
    cases hf : l.find? fun e => e.1 = c with
    | none => rw [hf] at hc; simp at hc
    | some e => rw [hf] at hc; rw [h.1 c e hf]; exact hc
  cases v <;> simp only [enumFind] at hi ⊢ <;> first | exact code _ hi | exact h.2 _ _ hi | cases hi

theorem extFind_mono {l m : List (Bytes × Str)} (h : Finds lower l m) {v : Val} {b : Bytes} (hb : extFind lower l v = .ok b) : extFind lower m v = .ok b := by
  cases v with
  | text s =>
    simp only [extFind] at hb ⊢
    have := h.2 s
    cases hf : l.find? fun e => lower e.2 = lower s with
    | none => rw [hf] at hb; simp at hb
    | some e =>
      rw [hf] at hb
      simp only [Except.ok.injEq] at hb
      rw [hf] at this
      have := this e.1 rfl
      cases hg : m.find? fun e => lower e.2 = lower s with
      | none => rw [hg] at this; simp at this
      | some e' => rw [hg] at this; simp only [Option.map_some, Option.some.injEq] at this; simp [this, hb]
  | auid a =>
    simp only [extFind] at hb ⊢
    cases hf : l.find? fun e => e.1 = a with
    | none => rw [hf] at hb; simp at hb
    | some e => rw [hf] at hb; rw [h.1 a e hf]; exact hb
  | _ => simp only [extFind] at hb; split at hb <;> cases hb

mutual
theorem Wider.enc : (t : Ty) → {u : Ty} → Wider lower t u → ∀ v b, enc lower t v = .ok b → enc lower u v = .ok b
  | .enum s g els, _, ⟨els', rfl, h⟩, v, b, hb => by
    rw [Types.enc] at hb ⊢
    cases hf : enumFind els v with
    | none => rw [hf] at hb; simp at hb
    | some i => rw [hf] at hb; rw [enumFind_mono h hf]; exact hb
  | .extEnum els, _, ⟨_, rfl, h⟩, v, b, hb => by rw [Types.enc] at hb ⊢; exact extFind_mono h hb
  | .fixed t n, _, ⟨t', rfl, h⟩, v, b, hb => by
    rw [Types.enc] at hb ⊢
    obtain ⟨s, h1, hb⟩ := bind_ok hb
    obtain ⟨l, h2, hb⟩ := bind_ok hb
    obtain ⟨p, h3, hb⟩ := bind_ok hb
    rw [Wider.size t h, h1, h2]
    simp only [bind, Except.bind]
    have := mapM_mono (g := Types.enc lower t') (fun a _ b hb => Wider.enc t h a b hb) h3
    rw [this]; exact hb
  | .var t, _, ⟨t', rfl, h⟩, v, b, hb => by
    rw [Types.enc] at hb ⊢
    obtain ⟨l, h2, hb⟩ := bind_ok hb
    obtain ⟨p, h3, hb⟩ := bind_ok hb
    rw [h2]
    simp only [bind, Except.bind]
    have := mapM_mono (g := Types.enc lower t') (fun a _ b hb => Wider.enc t h a b hb) h3
    rw [this]; exact hb
  | .set t, _, ⟨t', rfl, h⟩, v, b, hb => by
    rw [Types.enc] at hb ⊢
    obtain ⟨l, h2, hb⟩ := bind_ok hb
    obtain ⟨p, h3, hb⟩ := bind_ok hb
    rw [h2]
    simp only [bind, Except.bind]
    have := mapM_mono (g := Types.enc lower t') (fun a _ b hb => Wider.enc t h a b hb) h3
    rw [this]; exact hb
  | .rename t, _, ⟨_, rfl, h⟩, v, b, hb => by rw [Types.enc] at hb ⊢; exact Wider.enc t h v b hb
  | .record fs, _, ⟨_, rfl, h⟩, v, b, hb => by
    cases v <;> simp only [Types.enc] at hb ⊢ <;> first | exact WiderF.enc fs h _ b hb | cases hb
  | .int _ _, _, h, v, b, hb => by rw [Wider] at h; subst h; exact hb
  | .bool, _, h, v, b, hb => by rw [Wider] at h; subst h; exact hb
  | .strArray _, _, h, v, b, hb => by rw [Wider] at h; subst h; exact hb
  | .str, _, h, v, b, hb => by rw [Wider] at h; subst h; exact hb
  | .mobid, _, h, v, b, hb => by rw [Wider] at h; subst h; exact hb
  | .auid, _, h, v, b, hb => by rw [Wider] at h; subst h; exact hb
  | .rational, _, h, v, b, hb => by rw [Wider] at h; subst h; exact hb
  | .date, _, h, v, b, hb => by rw [Wider] at h; subst h; exact hb
  | .time, _, h, v, b, hb => by rw [Wider] at h; subst h; exact hb
  | .stamp, _, h, v, b, hb => by rw [Wider] at h; subst h; exact hb
theorem WiderF.enc : (fs : Fields) → {gs : Fields} → WiderF lower fs gs → ∀ d b, encFields lower fs d = .ok b → encFields lower gs d = .ok b
  | .nil, _, h, d, b, hb => by rw [WiderF] at h; subst h; exact hb
  | .cons n t rest, _, ⟨t', _, rfl, h, g⟩, d, b, hb => by
    rw [encFields] at hb ⊢
    obtain ⟨v, h1, hb⟩ := bind_ok hb
    obtain ⟨x, h2, hb⟩ := bind_ok hb
    obtain ⟨y, h3, hb⟩ := bind_ok hb
    rw [h1]
    simp only [bind, Except.bind]
    rw [Wider.enc t h v x h2]
    simp only
    rw [WiderF.enc rest g d y h3]; exact hb
end

theorem decLoop_mono {f g : Bytes → Res Val} (h : ∀ b v, f b = .ok v → g b = .ok v) {s n : Nat} {b : Bytes} {l : List Val} (hl : decLoop f s n b = .ok l) : decLoop g s n b = .ok l :=
  mapM_mono (fun _ _ v hv => h _ v hv) hl

mutual
/-- Types of a fixed size. -/
theorem Wider.dec : (t : Ty) → {u : Ty} → Wider lower t u → (s : Nat) → size t = .ok s → ∀ b v, dec t b = .ok v → dec u b = .ok v
  | .enum s g els, _, ⟨els', rfl, h⟩, _, _, b, v, hv => by
    rw [Types.dec] at hv ⊢
    obtain ⟨i, h1, hv⟩ := bind_ok hv
    rw [h1]
    simp only [bind, Except.bind]
    cases hf : els.find? fun e => e.1 = i with
    | none => rw [hf] at hv; exact absurd hv (by intro h; cases h)
    | some e => rw [hf] at hv; rw [h.1 i e hf]; exact hv
  | .extEnum els, _, _, _, hs, _, _, _ => by simp [Types.size] at hs
  | .fixed t n, _, ⟨t', rfl, h⟩, _, hs, b, v, hv => by
    rw [Types.dec] at hv ⊢
    rw [Wider.asInt h]
    cases ha : asIntTy t with
    | some p => rw [ha] at hv; exact hv
    | none =>
      rw [ha] at hv
      obtain ⟨s, h1, hv⟩ := bind_ok hv
      obtain ⟨l, h2, hv⟩ := bind_ok hv
      simp only [Wider.size t h, h1]
      simp only [bind, Except.bind]
      rw [decLoop_mono (Wider.dec t h s h1) h2]; exact hv
  | .var t, _, _, _, hs, _, _, _ => by simp [Types.size] at hs
  | .set t, _, _, _, hs, _, _, _ => by simp [Types.size] at hs
  | .rename t, _, _, _, hs, _, _, _ => by simp [Types.size] at hs
  | .record fs, _, ⟨gs, rfl, h⟩, _, _, b, v, hv => by
    rw [Types.dec] at hv ⊢
    obtain ⟨l, h1, hv⟩ := bind_ok hv
    rw [WiderF.dec fs h b [] l h1]; exact hv
  | .int _ _, _, h, _, _, b, v, hb => by rw [Wider] at h; subst h; exact hb
  | .bool, _, h, _, _, b, v, hb => by rw [Wider] at h; subst h; exact hb
  | .strArray _, _, h, _, _, b, v, hb => by rw [Wider] at h; subst h; exact hb
  | .str, _, h, _, _, b, v, hb => by rw [Wider] at h; subst h; exact hb
  | .mobid, _, h, _, _, b, v, hb => by rw [Wider] at h; subst h; exact hb
  | .auid, _, h, _, _, b, v, hb => by rw [Wider] at h; subst h; exact hb
  | .rational, _, h, _, _, b, v, hb => by rw [Wider] at h; subst h; exact hb
  | .date, _, h, _, _, b, v, hb => by rw [Wider] at h; subst h; exact hb
  | .time, _, h, _, _, b, v, hb => by rw [Wider] at h; subst h; exact hb
  | .stamp, _, h, _, _, b, v, hb => by rw [Wider] at h; subst h; exact hb
theorem WiderF.dec : (fs : Fields) → {gs : Fields} → WiderF lower fs gs → ∀ b acc l, decFields fs b acc = .ok l → decFields gs b acc = .ok l
  | .nil, _, h, b, acc, l, hl => by rw [WiderF] at h; subst h; exact hl
  | .cons n t rest, _, ⟨t', _, rfl, h, g⟩, b, acc, l, hl => by
    rw [decFields] at hl ⊢
    obtain ⟨s, h1, hl⟩ := bind_ok hl
    obtain ⟨v, h2, hl⟩ := bind_ok hl
    rw [Wider.size t h, h1]
    simp only [bind, Except.bind]
    rw [Wider.dec t h s h1 _ v h2]
    exact WiderF.dec rest g _ _ l hl
end

/-- Values are read and written in the same way. -/
theorem Wider.carries : (t : Ty) → {u : Ty} → Wider lower t u → Carries lower t u := by
  intro t u h
  refine ⟨Wider.enc t h, ?_⟩
  intro b v hv
  have fixed : ∀ s, Types.size t = .ok s → Types.dec u b = .ok v ∨ (v = .auid b ∧ ∃ s, Types.dec u b = .ok (.text s)) := fun s hs => .inl (Wider.dec t h s hs b v hv)
  have other : u = t → Types.dec u b = .ok v ∨ (v = .auid b ∧ ∃ s, Types.dec u b = .ok (.text s)) := fun e => .inl (e ▸ hv)
  induction t using Ty.rec (motive_2 := fun _ => True) generalizing u with
  | extEnum els =>
    obtain ⟨els', rfl, h⟩ := h
    rw [Types.dec] at hv ⊢
    cases hf : els.find? fun e => e.1 = b with
    | some e => rw [hf] at hv; rw [h.1 b e hf]; exact .inl hv
    | none =>
      rw [hf] at hv
      simp only [Except.ok.injEq] at hv
      cases hg : els'.find? fun e => e.1 = b with
      | some e => exact .inr ⟨hv.symm, e.2, rfl⟩
      | none => left; simp [hv]
  | var t ih =>
    obtain ⟨t', rfl, h⟩ := h
    left
    rw [Types.dec] at hv ⊢
    rw [Wider.asInt h]
    cases ha : asIntTy t with
    | some p => rw [ha] at hv; exact hv
    | none =>
      rw [ha] at hv
      obtain ⟨s, h1, hv⟩ := bind_ok hv
      simp only [Wider.size t h, h1]
      simp only [bind, Except.bind] at hv ⊢
      by_cases hz : s = 0
      · rw [if_pos hz] at hv; cases hv
      · rw [if_neg hz] at hv ⊢
        simp only [pure, Except.pure] at hv ⊢
        cases hl : decLoop (Types.dec t) s (b.length / s) b with
        | error e => rw [hl] at hv; cases hv
        | ok l => rw [hl] at hv; rw [decLoop_mono (Wider.dec t h s h1) hl]; exact hv
  | set t ih =>
    obtain ⟨t', rfl, h⟩ := h
    left
    rw [Types.dec] at hv ⊢
    obtain ⟨s, h1, hv⟩ := bind_ok hv
    simp only [Wider.size t h, h1]
    simp only [bind, Except.bind] at hv ⊢
    by_cases hz : s = 0
    · rw [if_pos hz] at hv; cases hv
    · rw [if_neg hz] at hv ⊢
      simp only [pure, Except.pure] at hv ⊢
      cases hl : decLoop (Types.dec t) s (b.length / s) b with
      | error e => rw [hl] at hv; cases hv
      | ok l => rw [hl] at hv; rw [decLoop_mono (Wider.dec t h s h1) hl]; exact hv
  | rename t ih =>
    obtain ⟨t', rfl, h⟩ := h
    rw [Types.dec] at hv
    have := ih h hv (fun s hs => .inl (Wider.dec t h s hs b v hv)) (fun e => .inl (e ▸ hv))
    rw [Types.dec]
    exact this
  | fixed t n ih =>
    left
    obtain ⟨t', rfl, h⟩ := h
    rw [Types.dec] at hv ⊢
    rw [Wider.asInt h]
    cases ha : asIntTy t with
    | some p => rw [ha] at hv; exact hv
    | none =>
      rw [ha] at hv
      obtain ⟨s, h1, hv⟩ := bind_ok hv
      obtain ⟨l, h2, hv⟩ := bind_ok hv
      simp only [Wider.size t h, h1]
      simp only [bind, Except.bind]
      rw [decLoop_mono (Wider.dec t h s h1) h2]; exact hv
  | record fs ih =>
    left
    obtain ⟨gs, rfl, h⟩ := h
    rw [Types.dec] at hv ⊢
    obtain ⟨l, h1, hv⟩ := bind_ok hv
    rw [WiderF.dec fs h b [] l h1]; exact hv
  | enum s g els => exact fixed s rfl
  | int s g => exact fixed s rfl
  | bool => exact fixed 1 rfl
  | mobid => exact fixed 32 rfl
  | auid => exact fixed 16 rfl
  | rational => exact fixed 8 rfl
  | date => exact fixed 4 rfl
  | time => exact fixed 4 rfl
  | stamp => exact fixed 8 rfl
  | strArray n => exact other (by simpa only [Wider] using h)
  | str => exact other (by simpa only [Wider] using h)
  | nil => trivial
  | cons _ _ _ => trivial

end Verif.TDict
