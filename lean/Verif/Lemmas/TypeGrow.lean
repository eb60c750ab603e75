import Verif.Lemmas.TypeSub
import Verif.Props.C07_Enum
/-!
# Types: definitions are added and enumerations get elements
-/
namespace Verif.TDict
open Verif.Meta (Auid Name get put)
open Verif.Types (Ty Fields)
open Verif.Utf16 (Str)
open Verif.Spec.TDict

variable {lower : Str → Str}

/-- The same definition with more elements. -/
def Le (lower : Str → Str) (k k' : Kind) : Prop :=
  k' = k ∨ (∃ e l l', k = .enum e l ∧ k' = .enum e l' ∧ Finds id l l') ∨ (∃ l l', k = .ext l ∧ k' = .ext l' ∧ Finds lower l l')

def Grow (lower : Str → Str) (T T' : Table) : Prop := ∀ x k, T x = some k → ∃ k', T' x = some k' ∧ Le lower k k'

theorem Le.trans {k k' k'' : Kind} (h : Le lower k k') (g : Le lower k' k'') : Le lower k k'' := by
  rcases h with rfl | ⟨e, l, l', rfl, rfl, h⟩ | ⟨l, l', rfl, rfl, h⟩
  · exact g
  · rcases g with rfl | ⟨e', m, m', h1, rfl, g⟩ | ⟨_, _, h1, _⟩
    · exact .inr (.inl ⟨e, l, l', rfl, rfl, h⟩)
    · cases h1; exact .inr (.inl ⟨e, l, m', rfl, rfl, Finds.trans h g⟩)
    · cases h1
  · rcases g with rfl | ⟨_, _, _, h1, _⟩ | ⟨m, m', h1, rfl, g⟩
    · exact .inr (.inr ⟨l, l', rfl, rfl, h⟩)
    · cases h1
    · cases h1; exact .inr (.inr ⟨l, m', rfl, rfl, Finds.trans h g⟩)

theorem Grow.refl (T : Table) : Grow lower T T := fun _ k h => ⟨k, h, .inl rfl⟩

theorem Grow.trans {T T' T'' : Table} (h : Grow lower T T') (g : Grow lower T' T'') : Grow lower T T'' := by
  intro x k hx
  obtain ⟨k', h1, h2⟩ := h x k hx
  obtain ⟨k'', h3, h4⟩ := g x k' h1
  exact ⟨k'', h3, h2.trans h4⟩

theorem members_mono {f g : Auid → Option Ty} {fs : List (Str × Auid)} (h : ∀ x ∈ fs, ∀ t, f x.2 = some t → ∃ u, g x.2 = some u ∧ Wider lower t u) {r : Fields} (hr : members f fs = some r) :
    ∃ r', members g fs = some r' ∧ WiderF lower r r' := by
  induction fs generalizing r with
  | nil => simp only [members, Option.some.injEq] at hr; subst hr; exact ⟨.nil, rfl, rfl⟩
  | cons x fs ih =>
    obtain ⟨n, a⟩ := x
    simp only [members, Option.bind_eq_some_iff, Option.map_eq_some_iff] at hr
    obtain ⟨t, h1, r0, h2, rfl⟩ := hr
    obtain ⟨u, h3, h4⟩ := h (n, a) (by simp) t h1
    obtain ⟨r', h5, h6⟩ := ih (fun x hx => h x (by simp [hx])) h2
    exact ⟨.cons n u r', by simp [members, h3, h5], _, _, rfl, h4, h6⟩

variable {P : Names}

theorem means_int {T : Table} {P : Names} {n : Nat} {a : Auid} {s : Nat} {g : Bool} (h : means T P n a = some (.int s g)) : T a = some (.int s g) := by
  cases n with
  | zero => cases h
  | succ n =>
    rw [means] at h
    split at h <;> (try split at h) <;> (try split at h) <;> simp_all
    rename_i x1 x2
    simp only [special] at x2
    repeat (first | (split at x2; (try cases x2)) | cases x2)

/-- What a type means stays, where enumerations can have more elements. -/
theorem means_mono {T T' : Table} (h : Grow lower T T') (n : Nat) : ∀ a t, means T P n a = some t → ∃ u, means T' P n a = some u ∧ Wider lower t u := by
  induction n with
  | zero => intro a t ht; cases ht
  | succ n ih =>
    intro a t ht
    have one : ∀ (e : Auid) (c : Ty → Ty), (means T P n e).map c = some t → (∀ x y, Wider lower x y → Wider lower (c x) (c y)) → ∃ u, (means T' P n e).map c = some u ∧ Wider lower t u := by
      intro e c h1 h2
      simp only [Option.map_eq_some_iff] at h1
      obtain ⟨x, h3, rfl⟩ := h1
      obtain ⟨u, h4, h5⟩ := ih e x h3
      exact ⟨c u, by simp [h4], h2 _ _ h5⟩
    have same : ∀ k, T a = some k → (∀ e l, k ≠ .enum e l) → (∀ l, k ≠ .ext l) → T' a = some k := by
      intro k hk h1 h2
      obtain ⟨k', h3, h4⟩ := h a k hk
      rcases h4 with rfl | ⟨e, l, l', rfl, _⟩ | ⟨l, l', rfl, _⟩
      · exact h3
      · exact absurd rfl (h1 e l)
      · exact absurd rfl (h2 l)
    cases hk : T a with
    | none => simp only [means, hk] at ht; cases ht
    | some k =>
      cases k with
      | int s g => rw [means, same _ hk (by simp) (by simp)]; simp only [means, hk] at ht; exact ⟨t, ht, Wider.refl _ t⟩
      | enum e els =>
        obtain ⟨k', h1, h2⟩ := h a _ hk
        have h3 : ∃ els', k' = .enum e els' ∧ Finds id els els' := by
          rcases h2 with rfl | ⟨_, l, l', h3, rfl, h4⟩ | ⟨_, _, h3, _⟩
          · exact ⟨els, rfl, Finds.refl _ _⟩
          · cases h3; exact ⟨l', rfl, h4⟩
          · cases h3
        obtain ⟨els', rfl, h4⟩ := h3
        simp only [means, hk] at ht
        simp only [means, h1]
        by_cases hb : a = boolAuid
        · rw [if_pos hb] at ht ⊢; exact ⟨t, ht, Wider.refl _ t⟩
        · rw [if_neg hb] at ht ⊢
          cases he : T e with
          | none => rw [he] at ht; cases ht
          | some ke =>
            rw [he] at ht
            cases ke with
            | int s g =>
              obtain ⟨ke', h5, h6⟩ := h e _ he
              have : ke' = .int s g := by
                rcases h6 with h6 | ⟨_, _, _, h6, _⟩ | ⟨_, _, h6, _⟩
                · exact h6
                · cases h6
                · cases h6
              subst this
              simp only [Option.some.injEq] at ht
              subst ht
              simp only [h5]
              exact ⟨_, rfl, els', rfl, h4⟩
            | _ => cases ht
      | ext els =>
        obtain ⟨k', h1, h2⟩ := h a _ hk
        simp only [means, hk, Option.some.injEq] at ht
        subst ht
        rcases h2 with rfl | ⟨_, _, _, h3, _⟩ | ⟨l, l', h3, rfl, h4⟩
        · exact ⟨.extEnum els, by simp only [means, h1], Wider.refl _ _⟩
        · cases h3
        · cases h3; exact ⟨.extEnum l', by simp only [means, h1], l', rfl, h4⟩
      | fixed e c =>
        rw [means, same _ hk (by simp) (by simp)]; simp only [means, hk] at ht
        exact one e (Ty.fixed · c) ht fun x y hw => ⟨y, rfl, hw⟩
      | var e =>
        rw [means, same _ hk (by simp) (by simp)]; simp only [means, hk] at ht
        by_cases hc : e = charAuid
        · simp only [if_pos hc] at ht ⊢; exact ⟨t, ht, Wider.refl _ t⟩
        · simp only [if_neg hc] at ht ⊢; exact one e Ty.var ht fun x y hw => ⟨y, rfl, hw⟩
      | set e =>
        rw [means, same _ hk (by simp) (by simp)]; simp only [means, hk] at ht
        exact one e Ty.set ht fun x y hw => ⟨y, rfl, hw⟩
      | str e => rw [means, same _ hk (by simp) (by simp)]; simp only [means, hk] at ht; exact ⟨t, ht, Wider.refl _ t⟩
      | record fs =>
        rw [means, same _ hk (by simp) (by simp)]; simp only [means, hk] at ht
        cases hs : special a with
        | some u => simp only [hs] at ht ⊢; exact ⟨t, ht, Wider.refl _ t⟩
        | none =>
          simp only [hs] at ht ⊢
          by_cases hp : (fs.all fun f => P f.2) = true
          · rw [if_pos hp] at ht ⊢
            simp only [Option.map_eq_some_iff] at ht
            obtain ⟨r, h1, rfl⟩ := ht
            obtain ⟨r', h2, h3⟩ := members_mono (fun x _ t ht => ih x.2 t ht) h1
            exact ⟨.record r', by simp [h2], r', rfl, h3⟩
          · rw [if_neg hp] at ht; cases ht
      | rename e =>
        rw [means, same _ hk (by simp) (by simp)]; simp only [means, hk] at ht
        exact one e Ty.rename ht fun x y hw => ⟨y, rfl, hw⟩
      | char => simp only [means, hk] at ht; cases ht
      | strong c => simp only [means, hk] at ht; cases ht
      | weak c => simp only [means, hk] at ht; cases ht
      | plain p => simp only [means, hk] at ht; cases ht

/-! ## Meaning by identifiers and what the code reads -/

theorem fieldsOf_members {f g : Auid → Option Ty} {fs : List (Str × Auid)} (h : ∀ x ∈ fs, ∀ t, f x.2 = some t → g x.2 = some t) {r : Fields} (hr : members f fs = some r) : fieldsOf g fs = some r := by
  induction fs generalizing r with
  | nil => simpa [members, fieldsOf] using hr
  | cons x fs ih =>
    obtain ⟨n, a⟩ := x
    simp only [members, Option.bind_eq_some_iff, Option.map_eq_some_iff] at hr
    obtain ⟨t, h1, r0, h2, rfl⟩ := hr
    simp only [fieldsOf]
    rw [h (n, a) (by simp) t h1, ih (fun x hx => h x (by simp [hx])) h2]

theorem kinds_type {d : Dict} {a : Auid} {k : Kind} (h : kinds d a = some k) : ∃ t, d.type a = some t ∧ t.kind = k := by
  simp only [kinds, Option.map_eq_some_iff] at h
  exact h

/-- With names of their own, types are read as they are. -/
theorem reads {d : Dict} (G : Good P d) (n : Nat) : ∀ a t, means (kinds d) P n a = some t → typeOf d n a = some t := by
  induction n with
  | zero => intro a t h; cases h
  | succ n ih =>
    intro a t h
    cases hk : kinds d a with
    | none => simp only [means, hk] at h; cases h
    | some k =>
      obtain ⟨x, hx, rfl⟩ := kinds_type hk
      have hown := G.own a x hx
      have ih' : ∀ e u, means (kinds d) P n e = some u → (d.type e).bind (denote d n) = some u := ih
      have one : ∀ (e : Auid) (c : Ty → Ty), (means (kinds d) P n e).map c = some t → ((d.type e).bind (denote d n)).map c = some t := by
        intro e c h
        simp only [Option.map_eq_some_iff] at h
        obtain ⟨u, h1, rfl⟩ := h
        rw [ih' e u h1]; rfl
      simp only [typeOf, hx, Option.bind_some, denote]
      simp only [means, hk] at h
      cases hk' : x.kind with
      | int s g => simp only [hk'] at h ⊢; exact h
      | enum e els =>
        simp only [hk', hown] at h ⊢
        by_cases hb : a = boolAuid
        · rw [if_pos hb] at h ⊢; exact h
        · rw [if_neg hb] at h ⊢; exact h
      | ext els => simp only [hk'] at h ⊢; exact h
      | fixed e c => simp only [hk'] at h ⊢; exact one e _ h
      | var e =>
        simp only [hk'] at h ⊢
        by_cases hc : e = charAuid
        · rw [if_pos hc] at h
          obtain ⟨y, hy, hn⟩ := G.char
          subst hc
          simp only [hy, if_true, hn]
          exact h
        · rw [if_neg hc] at h
          simp only [Option.map_eq_some_iff] at h
          obtain ⟨u, h1, rfl⟩ := h
          have h2 := ih' e u h1
          cases he : d.type e with
          | none => rw [he] at h2; cases h2
          | some y =>
            rw [he] at h2
            simp only [if_neg hc, if_neg (fun h => hc (G.chars e y he h))]
            simp only [Option.bind_some] at h2
            rw [h2]; rfl
      | set e => simp only [hk'] at h ⊢; exact one e _ h
      | str e => simp only [hk'] at h ⊢; exact h
      | record fs =>
        simp only [hk', hown] at h ⊢
        cases hs : special a with
        | some u => simp only [hs] at h ⊢; exact h
        | none =>
          simp only [hs] at h ⊢
          by_cases hp : (fs.all fun f => P f.2) = true
          · rw [if_pos hp] at h
            simp only [Option.map_eq_some_iff] at h
            obtain ⟨r, h1, rfl⟩ := h
            have := fieldsOf_members (g := fun a => (d.type a).bind fun t => (d.named t.name).bind (denote d n)) (fun f hf t ht => by
              obtain ⟨y, h2, h3, _⟩ := G.named f.2 (List.all_eq_true.1 hp f hf)
              have h4 := ih' f.2 t ht
              simp only [h2, Option.bind_some, Dict.named, h3]
              have h5 : (get d.byAuid f.2).bind (fun i => d.heap[i]?) = some y := h2
              rw [h5]
              rw [h2] at h4
              exact h4) h1
            rw [this]; rfl
          · rw [if_neg hp] at h; cases h
      | rename e => simp only [hk'] at h ⊢; exact one e _ h
      | char => simp only [hk'] at h; cases h
      | strong c => simp only [hk'] at h; cases h
      | weak c => simp only [hk'] at h; cases h
      | plain p => simp only [hk'] at h; cases h

/-! ## Elements -/

section elements
variable {κ : Type} [DecidableEq κ] {norm : Str → Str}

/-- How elements are registered. -/
def Adds (add : List (κ × Str) → Str → κ → List (κ × Str)) : Prop :=
  ∀ acc n k, ((∃ e ∈ acc, e.1 = k ∨ e.2 = n) ∧ add acc n k = acc) ∨ ((∀ e ∈ acc, e.1 ≠ k ∧ e.2 ≠ n) ∧ (add acc n k).Perm (acc ++ [(k, n)]))

theorem adds_code : Adds addCode := by
  intro acc n k
  simp only [addCode]
  by_cases h : acc.any (fun p => p.1 = k ∨ p.2 = n) = true
  · rw [if_pos h]
    simp only [List.any_eq_true, decide_eq_true_eq] at h
    exact .inl ⟨h, rfl⟩
  · rw [if_neg h]
    simp only [List.any_eq_true, decide_eq_true_eq, not_exists, not_and, not_or] at h
    exact .inr ⟨h, (Enum.sortCodes_perm acc).append_right _⟩

theorem adds_key : Adds addKey := by
  intro acc n k
  simp only [addKey]
  by_cases h : acc.any (fun p => p.1 = k ∨ p.2 = n) = true
  · rw [if_pos h]
    simp only [List.any_eq_true, decide_eq_true_eq] at h
    exact .inl ⟨h, rfl⟩
  · rw [if_neg h]
    simp only [List.any_eq_true, decide_eq_true_eq, not_exists, not_and, not_or] at h
    exact .inr ⟨h, .refl _⟩

theorem Clean.perm {l m : List (κ × Str)} (h : l.Perm m) (c : Clean norm l) : Clean norm m := ⟨(h.map _).nodup_iff.1 c.1, (h.map _).nodup_iff.1 c.2⟩

theorem Clean.append {l : List (κ × Str)} {k : κ} {n : Str} (c : Clean norm l) (h : ∀ e ∈ l, e.1 ≠ k ∧ norm e.2 ≠ norm n) : Clean norm (l ++ [(k, n)]) := by
  constructor
  · simp only [List.map_append, List.map_cons, List.map_nil]
    refine List.nodup_append.2 ⟨c.1, by simp, ?_⟩
    intro a ha b hb
    obtain ⟨e, he, rfl⟩ := List.mem_map.1 ha
    simp only [List.mem_singleton] at hb
    subst hb; exact (h e he).1
  · simp only [List.map_append, List.map_cons, List.map_nil]
    refine List.nodup_append.2 ⟨c.2, by simp, ?_⟩
    intro a ha b hb
    obtain ⟨e, he, rfl⟩ := List.mem_map.1 ha
    simp only [List.mem_singleton] at hb
    subst hb; exact (h e he).2

theorem fold_kept {add : List (κ × Str) → Str → κ → List (κ × Str)} (A : Adds add) (els : List (κ × Str)) (src : List (κ × Str)) : ∀ acc, Clean id acc →
    Clean id (src.foldl (fun acc p => if els.any (fun q => q.1 = p.1) then acc else add acc p.2 p.1) acc) ∧
    ∀ e ∈ acc, e ∈ src.foldl (fun acc p => if els.any (fun q => q.1 = p.1) then acc else add acc p.2 p.1) acc := by
  induction src with
  | nil => intro acc c; exact ⟨c, fun e h => h⟩
  | cons p src ih =>
    intro acc c
    simp only [List.foldl_cons]
    by_cases h : els.any (fun q => q.1 = p.1) = true
    · rw [if_pos h]; exact ih acc c
    · rw [if_neg h]
      rcases A acc p.2 p.1 with ⟨_, h2⟩ | ⟨h1, h2⟩
      · rw [h2]; exact ih acc c
      · obtain ⟨h3, h4⟩ := ih _ (Clean.perm h2.symm (Clean.append c h1))
        exact ⟨h3, fun e he => h4 e (h2.symm.subset (List.mem_append_left _ he))⟩

theorem nodup_eq {α β : Type} {f : α → β} {l : List α} (h : (l.map f).Nodup) {x y : α} (hx : x ∈ l) (hy : y ∈ l) (e : f x = f y) : x = y := by
  induction l with
  | nil => cases hx
  | cons z l ih =>
    simp only [List.map_cons, List.nodup_cons] at h
    rcases List.mem_cons.1 hx with rfl | hx'
    · rcases List.mem_cons.1 hy with rfl | hy'
      · rfl
      · exact absurd (List.mem_map.2 ⟨y, hy', e.symm⟩) h.1
    · rcases List.mem_cons.1 hy with rfl | hy'
      · exact absurd (List.mem_map.2 ⟨x, hx', e⟩) h.1
      · exact ih h.2 hx' hy'

theorem fold_all {add : List (κ × Str) → Str → κ → List (κ × Str)} (A : Adds add) {els all : List (κ × Str)} (ce : Clean norm all) (ag : Agree norm all els) (src : List (κ × Str)) (hs : ∀ e ∈ src, e ∈ all) :
    ∀ acc, Clean norm acc → (∀ e ∈ els, e ∈ acc) → (∀ e ∈ acc, e ∈ els ∨ e ∈ all) →
    let r := src.foldl (fun acc p => if els.any (fun q => q.1 = p.1) then acc else add acc p.2 p.1) acc
    Clean norm r ∧ (∀ e ∈ acc, e ∈ r) ∧ ∀ e ∈ src, e ∈ r := by
  induction src with
  | nil => intro acc c _ _; exact ⟨c, fun e h => h, fun e h => by cases h⟩
  | cons p src ih =>
    intro acc c h1 h2
    have hp := hs p (by simp)
    have hs' : ∀ e ∈ src, e ∈ all := fun e he => hs e (by simp [he])
    have key : ∀ e ∈ acc, e.1 = p.1 ∨ norm e.2 = norm p.2 → e = p := by
      intro e he hh
      rcases h2 e he with g | g
      · exact (ag p hp e g (hh.imp Eq.symm Eq.symm)).symm
      · rcases hh with hh | hh
        · exact nodup_eq ce.1 g hp hh
        · exact nodup_eq ce.2 g hp hh
    intro r
    have there : p ∈ acc → Clean norm (src.foldl (fun acc p => if els.any (fun q => q.1 = p.1) then acc else add acc p.2 p.1) acc) ∧
        (∀ e ∈ acc, e ∈ src.foldl (fun acc p => if els.any (fun q => q.1 = p.1) then acc else add acc p.2 p.1) acc) ∧
        ∀ e ∈ p :: src, e ∈ src.foldl (fun acc p => if els.any (fun q => q.1 = p.1) then acc else add acc p.2 p.1) acc := by
      intro hin
      obtain ⟨i1, i2, i3⟩ := ih hs' acc c h1 h2
      refine ⟨i1, i2, fun e he => ?_⟩
      rcases List.mem_cons.1 he with rfl | he
      · exact i2 _ hin
      · exact i3 e he
    by_cases h : els.any (fun q => q.1 = p.1) = true
    · have : r = src.foldl (fun acc p => if els.any (fun q => q.1 = p.1) then acc else add acc p.2 p.1) acc := by
        simp only [r, List.foldl_cons, if_pos h]
      rw [this]
      simp only [List.any_eq_true, decide_eq_true_eq] at h
      obtain ⟨q, h3, h4⟩ := h
      exact there (key q (h1 q h3) (.inl h4) ▸ h1 q h3)
    · have hr : r = src.foldl (fun acc p => if els.any (fun q => q.1 = p.1) then acc else add acc p.2 p.1) (add acc p.2 p.1) := by
        simp only [r, List.foldl_cons, if_neg h]
      rw [hr]
      rcases A acc p.2 p.1 with ⟨⟨e, h3, h4⟩, h5⟩ | ⟨h3, h4⟩
      · rw [h5]
        exact there (key e h3 (h4.imp id fun h => by rw [h]) ▸ h3)
      · have h5 : ∀ e ∈ acc, e.1 ≠ p.1 ∧ norm e.2 ≠ norm p.2 := by
          intro e he
          refine ⟨(h3 e he).1, fun hh => (h3 e he).1 ?_⟩
          rw [key e he (.inr hh)]
        have sub : ∀ e, e ∈ add acc p.2 p.1 ↔ e ∈ acc ∨ e = p := by
          intro e
          rw [h4.mem_iff]; simp
        obtain ⟨i1, i2, i3⟩ := ih hs' (add acc p.2 p.1) (Clean.perm h4.symm (Clean.append c h5)) (fun e he => (sub e).2 (.inl (h1 e he))) (fun e he => by
          rcases (sub e).1 he with g | rfl
          · exact h2 e g
          · exact .inr hp)
        refine ⟨i1, fun e he => i2 e ((sub e).2 (.inl he)), fun e he => ?_⟩
        rcases List.mem_cons.1 he with rfl | he
        · exact i2 _ ((sub _).2 (.inr rfl))
        · exact i3 e he

/-- Elements stay. -/
theorem mergeCodes_kept {els : List (Int × Str)} (c : Clean id els) (src : List (Int × Str)) : Clean id (mergeCodes els src) ∧ Finds id els (mergeCodes els src) := by
  obtain ⟨h1, h2⟩ := fold_kept adds_code els src els c
  exact ⟨h1, Finds.of_subset h2 h1⟩

theorem mergeKeys_prefix (els src : List (Bytes × Str)) : ∃ m, mergeKeys els src = els ++ m := by
  suffices ∀ acc, (∃ m, acc = els ++ m) → ∃ m, src.foldl (fun acc p => if els.any (fun q => q.1 = p.1) then acc else addKey acc p.2 p.1) acc = els ++ m from this els ⟨[], by simp⟩
  induction src with
  | nil => intro acc h; exact h
  | cons p src ih =>
    rintro acc ⟨m, rfl⟩
    simp only [List.foldl_cons]
    apply ih
    split
    · exact ⟨m, rfl⟩
    · simp only [addKey]
      split
      · exact ⟨m, rfl⟩
      · exact ⟨m ++ [(p.1, p.2)], by simp⟩

theorem mergeKeys_kept (els src : List (Bytes × Str)) : Finds lower els (mergeKeys els src) := by
  obtain ⟨m, h⟩ := mergeKeys_prefix els src
  rw [h]; exact Finds.prefix _ _ _

/-- Elements come. -/
theorem mergeCodes_all {els src : List (Int × Str)} (c : Clean id els) (c' : Clean id src) (ag : Agree id src els) : Finds id src (mergeCodes els src) := by
  obtain ⟨h1, _, h3⟩ := fold_all adds_code c' ag src (fun _ h => h) els c (fun _ h => h) (fun _ h => .inl h)
  exact Finds.of_subset h3 h1

theorem mergeKeys_all {els src : List (Bytes × Str)} (c : Clean lower els) (c' : Clean lower src) (ag : Agree lower src els) : Finds lower src (mergeKeys els src) := by
  obtain ⟨h1, _, h3⟩ := fold_all adds_key c' ag src (fun _ h => h) els c (fun _ h => h) (fun _ h => .inl h)
  exact Finds.of_subset h3 h1
end elements

end Verif.TDict
