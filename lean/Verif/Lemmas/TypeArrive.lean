import Verif.Lemmas.TypeBring
/-!
# Types: what is brought comes
-/
namespace Verif.TDict
open Verif.Meta (Auid Name get put get_put)
open Verif.Types (Ty Fields)
open Verif.Utf16 (Str)
open Verif.Spec.TDict

variable {lower : Str → Str} {P : Names} {S d d' : Dict} {T : Table}

def Shape (k k' : Kind) : Prop := (∀ e l, k = .enum e l → ∃ e' l', k' = .enum e' l') ∧ (∀ l, k = .ext l → ∃ l', k' = .ext l')

theorem Shape.refl (k : Kind) : Shape k k := ⟨fun e l h => ⟨e, l, h⟩, fun l h => ⟨l, h⟩⟩

theorem Shape.le {k k' k'' : Kind} (h : Shape k k') (g : Le lower k' k'') : Shape k k'' := by
  rcases g with rfl | ⟨e, l, l', rfl, rfl, _⟩ | ⟨l, l', rfl, rfl, _⟩
  · exact h
  · refine ⟨fun _ _ _ => ⟨e, l', rfl⟩, fun l0 h0 => ?_⟩
    obtain ⟨_, h1⟩ := h.2 l0 h0
    cases h1
  · refine ⟨fun e l0 h0 => ?_, fun _ _ => ⟨l', rfl⟩⟩
    obtain ⟨_, _, h1⟩ := h.1 e l0 h0
    cases h1

/-- A type of `S` is there. -/
structure Arrived (lower : Str → Str) (P : Names) (S d : Dict) (x : Auid) : Prop where
  means : ∀ n t, means (kinds S) P.all n x = some t → ∃ u, means (kinds d) P n x = some u ∧ Wider lower t u
  shape : ∀ k, kinds S x = some k → ∃ k', kinds d x = some k' ∧ Shape k k'

theorem Arrived.mono {x : Auid} (h : Arrived lower P S d x) (g : Grow lower (kinds d) (kinds d')) : Arrived lower P S d' x := by
  refine ⟨fun n t ht => ?_, fun k hk => ?_⟩
  · obtain ⟨u, h1, h2⟩ := h.means n t ht
    obtain ⟨v, h3, h4⟩ := means_mono g n x u h1
    exact ⟨v, h3, Wider.trans _ h2 h4⟩
  · obtain ⟨k', h1, h2⟩ := h.shape k hk
    obtain ⟨k'', h3, h4⟩ := g x k' h1
    exact ⟨k'', h3, h2.le h4⟩

structure Inv (lower : Str → Str) (P : Names) (S : Dict) (T : Table) (d : Dict) : Prop where
  good : Good P d
  grow : Grow lower T (kinds d)
  rest : ∀ x, kinds d x = T x ∨ Arrived lower P S d x

theorem fit_mono (n : Nat) : ∀ a, Fit lower (kinds S) T P n a → Fit lower (kinds S) T P (n + 1) a := by
  induction n with
  | zero =>
    intro a h
    unfold Fit at h ⊢
    obtain ⟨k, h1, h2⟩ := h
    refine ⟨k, h1, ?_⟩
    cases hT : T a with
    | none => rw [hT] at h2; exact h2.elim
    | some k' => rw [hT] at h2; exact h2
  | succ n ih =>
    intro a h
    unfold Fit at h ⊢
    obtain ⟨k, h1, h2⟩ := h
    refine ⟨k, h1, ?_⟩
    cases hT : T a with
    | none =>
      rw [hT] at h2
      cases k with
      | enum e l => exact ⟨h2.1, ih e h2.2⟩
      | fixed e c => exact ih e h2
      | var e => exact ih e h2
      | str e => exact ih e h2
      | rename e => exact ih e h2
      | record fs => exact fun f hf => ⟨(h2 f hf).1, ih _ (h2 f hf).2⟩
      | _ => exact h2
    | some k' => rw [hT] at h2; exact h2

theorem fit_source {n : Nat} {a : Auid} (h : Fit lower (kinds S) T P n a) : ∃ k, kinds S a = some k := by
  unfold Fit at h
  obtain ⟨k, h1, _⟩ := h
  exact ⟨k, h1⟩

/-- The parts of an unknown type. -/
theorem fit_parts {n : Nat} {a : Auid} {k : Kind} (h : Fit lower (kinds S) T P n a) (hk : kinds S a = some k) (hT : T a = none) :
    ∃ n', n = n' + 1 ∧ (∀ e ∈ k.parts, Fit lower (kinds S) T P n' e) ∧ (∀ e l, k = .enum e l → ∃ s g, kinds S e = some (.int s g)) ∧
      (∀ fs, k = .record fs → ∀ f ∈ fs, P f.2 = true) ∧ (∀ e, k ≠ .set e) ∧ (∀ e, k ≠ .weak e) ∧ ∀ e, k ≠ .strong e := by
  unfold Fit at h
  obtain ⟨k', h1, h2⟩ := h
  rw [hk] at h1
  cases h1
  rw [hT] at h2
  cases n with
  | zero => exact h2.elim
  | succ n =>
    refine ⟨n, rfl, ?_⟩
    cases k with
    | enum e l => exact ⟨by simpa [Kind.parts] using h2.2, fun _ _ h => by cases h; exact h2.1, by simp⟩
    | fixed e c => exact ⟨by simpa [Kind.parts] using h2, by simp⟩
    | var e => exact ⟨by simpa [Kind.parts] using h2, by simp⟩
    | str e => exact ⟨by simpa [Kind.parts] using h2, by simp⟩
    | rename e => exact ⟨by simpa [Kind.parts] using h2, by simp⟩
    | record fs =>
      refine ⟨?_, by simp, fun _ h => by cases h; exact fun f hf => (h2 f hf).1, by simp⟩
      intro e he
      simp only [Kind.parts, List.mem_map] at he
      obtain ⟨f, hf, rfl⟩ := he
      exact (h2 f hf).2
    | set e => exact h2.elim
    | weak e => exact h2.elim
    | strong e => exact h2.elim
    | _ => exact ⟨by simp [Kind.parts], by simp⟩

theorem merge_ok {a : Auid} {k k' : Kind} (h : kinds d a = some k') (s : Shape k k') : (merge d a k).1 = .ok () := by
  obtain ⟨t, ht, rfl⟩ := kinds_type h
  simp only [Dict.type, Option.bind_eq_some_iff] at ht
  obtain ⟨i, hi, ht⟩ := ht
  cases k with
  | enum e l =>
    obtain ⟨e', l', h1⟩ := s.1 e l rfl
    simp [merge, hi, ht, h1]
  | ext l =>
    obtain ⟨l', h1⟩ := s.2 l rfl
    simp [merge, hi, ht, h1]
  | _ => simp [merge]

theorem merge_other (G : Good P d) {a y : Auid} (k : Kind) (h : y ≠ a) : kinds (merge d a k).2 y = kinds d y := by
  rcases merge_cases d a k with h1 | ⟨i, t, hi, ht, _, ⟨_, _, _, _, _, _, h1⟩ | ⟨_, _, _, _, h1⟩⟩
  · rw [h1]
  · rw [h1, kinds_rekind G hi ht, if_neg h]
  · rw [h1, kinds_rekind G hi ht, if_neg h]

theorem merge_enum (G : Good P d) {a e e' : Auid} {els src : List (Int × Str)} (h : kinds d a = some (.enum e els)) :
    kinds (merge d a (.enum e' src)).2 a = some (.enum e (mergeCodes els src)) := by
  obtain ⟨t, ht, hk⟩ := kinds_type h
  simp only [Dict.type, Option.bind_eq_some_iff] at ht
  obtain ⟨i, hi, ht⟩ := ht
  have : (merge d a (.enum e' src)).2 = d.rekind i t (.enum e (mergeCodes els src)) := by simp [merge, hi, ht, hk, Dict.rekind]
  rw [this, kinds_rekind G hi ht, if_pos rfl]

theorem merge_ext (G : Good P d) {a : Auid} {els src : List (Bytes × Str)} (h : kinds d a = some (.ext els)) :
    kinds (merge d a (.ext src)).2 a = some (.ext (mergeKeys els src)) := by
  obtain ⟨t, ht, hk⟩ := kinds_type h
  simp only [Dict.type, Option.bind_eq_some_iff] at ht
  obtain ⟨i, hi, ht⟩ := ht
  have : (merge d a (.ext src)).2 = d.rekind i t (.ext (mergeKeys els src)) := by simp [merge, hi, ht, hk, Dict.rekind]
  rw [this, kinds_rekind G hi ht, if_pos rfl]

/-- A type that was there before. -/
theorem arrived_known {n : Nat} {x : Auid} {k : Kind} (F : Fit lower (kinds S) T P n x) (I : Inv lower P S T d) (hk : kinds S x = some k) (hd : kinds d x = T x) (hx : T x ≠ none) :
    (merge d x k).1 = .ok () ∧ Arrived lower P S (merge d x k).2 x := by
  unfold Fit at F
  obtain ⟨k1, h1, h2⟩ := F
  rw [hk] at h1
  cases h1
  have G := I.good
  cases hT : T x with
  | none => exact absurd hT hx
  | some k' =>
    rw [hT] at h2 hd
    have gm := (merge_keeps (lower := lower) (P := P) d x k G).2
    have plain : Shape k k' → (∀ n t, means (kinds S) P.all n x = some t → ∃ u, means T P n x = some u ∧ Wider lower t u) → (merge d x k).1 = .ok () ∧ Arrived lower P S (merge d x k).2 x := by
      intro s h
      refine ⟨merge_ok hd s, Arrived.mono (d := d) ⟨fun n t ht => ?_, fun k0 hk0 => ?_⟩ gm⟩
      · obtain ⟨u, h3, h4⟩ := h n t ht
        obtain ⟨v, h5, h6⟩ := means_mono I.grow n x u h3
        exact ⟨v, h5, Wider.trans _ h4 h6⟩
      · rw [hk] at hk0; cases hk0; exact ⟨k', hd, s⟩
    cases k with
    | enum e els =>
      cases k' with
      | enum e' els' =>
        obtain ⟨rfl, ⟨s, g, h3, h4⟩, c, ag⟩ := h2
        refine ⟨merge_ok hd ⟨fun _ _ _ => ⟨_, _, rfl⟩, fun _ h => by cases h⟩, ?_, ?_⟩
        · have hm := merge_enum (e' := e) (src := els) G hd
          intro n t ht
          cases n with
          | zero => cases ht
          | succ n =>
            simp only [means, hk] at ht
            simp only [means, hm]
            by_cases hb : x = boolAuid
            · rw [if_pos hb] at ht ⊢; exact ⟨t, ht, Wider.refl _ t⟩
            · rw [if_neg hb] at ht ⊢
              simp only [h3, Option.some.injEq] at ht
              subst ht
              obtain ⟨ke, h5, h6⟩ := (I.grow.trans gm) e _ h4
              have : ke = .int s g := by
                rcases h6 with h6 | ⟨_, _, _, h6, _⟩ | ⟨_, _, h6, _⟩
                · exact h6
                · cases h6
                · cases h6
              subst this
              simp only [h5]
              exact ⟨_, rfl, _, rfl, mergeCodes_all (G.clean x e els' hd) c ag⟩
        · intro k0 hk0
          rw [hk] at hk0; cases hk0
          exact ⟨_, merge_enum G hd, ⟨fun _ _ _ => ⟨_, _, rfl⟩, fun _ h => by cases h⟩⟩
      | _ => exact h2.elim
    | ext els =>
      cases k' with
      | ext els' =>
        obtain ⟨c, c', ag⟩ := h2
        have hm := merge_ext (src := els) G hd
        refine ⟨merge_ok hd ⟨(fun _ _ h => by cases h), fun _ _ => ⟨_, rfl⟩⟩, ?_, ?_⟩
        · intro n t ht
          cases n with
          | zero => cases ht
          | succ n =>
            simp only [means, hk, Option.some.injEq] at ht
            subst ht
            simp only [means, hm]
            exact ⟨_, rfl, _, rfl, mergeKeys_all c' c ag⟩
        · intro k0 hk0
          rw [hk] at hk0; cases hk0
          exact ⟨_, hm, ⟨(fun _ _ h => by cases h), fun _ _ => ⟨_, rfl⟩⟩⟩
      | _ => exact h2.elim
    | int s g => exact plain ⟨(fun _ _ h => by cases h), (fun _ h => by cases h)⟩ h2
    | fixed e c => exact plain ⟨(fun _ _ h => by cases h), (fun _ h => by cases h)⟩ h2
    | var e => exact plain ⟨(fun _ _ h => by cases h), (fun _ h => by cases h)⟩ h2
    | set e => exact plain ⟨(fun _ _ h => by cases h), (fun _ h => by cases h)⟩ h2
    | str e => exact plain ⟨(fun _ _ h => by cases h), (fun _ h => by cases h)⟩ h2
    | record fs => exact plain ⟨(fun _ _ h => by cases h), (fun _ h => by cases h)⟩ h2
    | rename e => exact plain ⟨(fun _ _ h => by cases h), (fun _ h => by cases h)⟩ h2
    | char => exact plain ⟨(fun _ _ h => by cases h), (fun _ h => by cases h)⟩ h2
    | strong c => exact plain ⟨(fun _ _ h => by cases h), (fun _ h => by cases h)⟩ h2
    | weak c => exact plain ⟨(fun _ _ h => by cases h), (fun _ h => by cases h)⟩ h2
    | plain p => exact plain ⟨(fun _ _ h => by cases h), (fun _ h => by cases h)⟩ h2

/-- A type that comes after its parts. -/
theorem arrived_new {x : Auid} {k : Kind} (hk : kinds S x = some k) (hd : kinds d x = some k) (hp : ∀ e ∈ k.parts, Arrived lower P S d e)
    (he : ∀ e l, k = .enum e l → ∃ s g, kinds S e = some (.int s g)) (hr : ∀ fs, k = .record fs → ∀ f ∈ fs, P f.2 = true) (hs : ∀ e, k ≠ .set e) : Arrived lower P S d x := by
  refine ⟨fun n t ht => ?_, fun k0 hk0 => by rw [hk] at hk0; cases hk0; exact ⟨k, hd, Shape.refl k⟩⟩
  cases n with
  | zero => cases ht
  | succ n =>
    have one : ∀ (e : Auid) (c : Ty → Ty), e ∈ k.parts → (means (kinds S) P.all n e).map c = some t → (∀ x y, Wider lower x y → Wider lower (c x) (c y)) → ∃ u, (means (kinds d) P n e).map c = some u ∧ Wider lower t u := by
      intro e c hm h1 h2
      simp only [Option.map_eq_some_iff] at h1
      obtain ⟨x, h3, rfl⟩ := h1
      obtain ⟨u, h4, h5⟩ := (hp e hm).means n x h3
      exact ⟨c u, by simp [h4], h2 _ _ h5⟩
    simp only [means, hk] at ht
    simp only [means, hd]
    cases k with
    | enum e els =>
      simp only at ht ⊢
      by_cases hb : x = boolAuid
      · rw [if_pos hb] at ht ⊢; exact ⟨t, ht, Wider.refl _ t⟩
      · rw [if_neg hb] at ht ⊢
        obtain ⟨s, g, h1⟩ := he e els rfl
        simp only [h1, Option.some.injEq] at ht
        subst ht
        obtain ⟨u, h2, h3⟩ := (hp e (by simp [Kind.parts])).means 1 (.int s g) (by simp only [means, h1])
        rw [Wider] at h3
        subst h3
        simp only [means_int h2]
        exact ⟨_, rfl, Wider.refl _ _⟩
    | fixed e c => exact one e _ (by simp [Kind.parts]) ht fun x y hw => ⟨y, rfl, hw⟩
    | var e =>
      simp only at ht ⊢
      by_cases hc : e = charAuid
      · rw [if_pos hc] at ht ⊢; exact ⟨t, ht, Wider.refl _ t⟩
      · rw [if_neg hc] at ht ⊢; exact one e _ (by simp [Kind.parts]) ht fun x y hw => ⟨y, rfl, hw⟩
    | set e => exact absurd rfl (hs e)
    | rename e => exact one e _ (by simp [Kind.parts]) ht fun x y hw => ⟨y, rfl, hw⟩
    | record fs =>
      simp only at ht ⊢
      cases hsp : special x with
      | some u => simp only [hsp] at ht ⊢; exact ⟨t, ht, Wider.refl _ t⟩
      | none =>
        simp only [hsp] at ht ⊢
        rw [if_pos (by simp [Names.all])] at ht
        rw [if_pos (List.all_eq_true.2 (hr fs rfl))]
        simp only [Option.map_eq_some_iff] at ht
        obtain ⟨r, h1, rfl⟩ := ht
        obtain ⟨r', h2, h3⟩ := members_mono (fun f hf t ht => (hp f.2 (by simp only [Kind.parts]; exact List.mem_map.2 ⟨f, hf, rfl⟩)).means n t ht) h1
        exact ⟨.record r', by simp [h2], r', rfl, h3⟩
    | int s g => exact ⟨t, ht, Wider.refl _ t⟩
    | ext els => exact ⟨t, ht, Wider.refl _ t⟩
    | str e => exact ⟨t, ht, Wider.refl _ t⟩
    | char => cases ht
    | strong c => cases ht
    | weak c => cases ht
    | plain p => cases ht

/-- What a step of bringing does. -/
def Comes (lower : Str → Str) (P : Names) (S : Dict) (T : Table) (n : Nat) (d : Dict) (x : Auid) (r : Res Bool × Dict) : Prop :=
  r.1 = .ok true ∧ Inv lower P S T r.2 ∧ Arrived lower P S r.2 x ∧ ∀ y, kinds r.2 y ≠ kinds d y → Fit lower (kinds S) T P n y

theorem each_arrive {f : Dict → Auid → Res Bool × Dict} (hk : ∀ d a, Keeps lower P d (f d a).2) {n : Nat} (l : List Auid) (hl : ∀ e ∈ l, ∀ d, Inv lower P S T d → Comes lower P S T n d e (f d e)) :
    ∀ d, Inv lower P S T d → (each f d l).1 = .ok () ∧ Inv lower P S T (each f d l).2 ∧ (∀ e ∈ l, Arrived lower P S (each f d l).2 e) ∧ ∀ y, kinds (each f d l).2 y ≠ kinds d y → Fit lower (kinds S) T P n y := by
  induction l with
  | nil => intro d I; exact ⟨rfl, I, (fun e h => by cases h), fun y h => absurd rfl h⟩
  | cons a l ih =>
    intro d I
    obtain ⟨h1, h2, h3, h4⟩ := hl a (by simp) d I
    cases hr : f d a with
    | mk r d1 =>
      rw [hr] at h1 h2 h3 h4
      simp only at h1
      subst h1
      have : each f d (a :: l) = each f d1 l := by simp only [each, hr]
      rw [this]
      obtain ⟨i1, i2, i3, i4⟩ := ih (fun e he => hl e (by simp [he])) d1 h2
      have gr := (each_keeps hk l d1 h2.good).2
      refine ⟨i1, i2, fun e he => ?_, fun y hy => ?_⟩
      · rcases List.mem_cons.1 he with rfl | he
        · exact h3.mono gr
        · exact i3 e he
      · by_cases h5 : kinds (each f d1 l).2 y = kinds d1 y
        · exact h4 y (fun h => hy (h5.trans h))
        · exact i4 y h5

theorem bringParts_plain {f : Dict → Auid → Res Bool × Dict} {k : Kind} (h1 : ∀ e, k ≠ .weak e) (h2 : ∀ e, k ≠ .strong e) : bringParts f S d k = each f d k.parts := by
  cases k <;> first | rfl | exact absurd rfl (h1 _) | exact absurd rfl (h2 _)

theorem copied_ok {k : Kind} (h1 : ∀ e, k ≠ .weak e) (h2 : ∀ e, k ≠ .set e) (h : ∀ e ∈ k.parts, ∃ k', kinds S e = some k') : k.copied S = .ok k := by
  have : (k.parts.all fun e => (S.type e).isSome) = true := by
    rw [List.all_eq_true]
    intro e he
    obtain ⟨k', h3⟩ := h e he
    obtain ⟨t, h4, _⟩ := kinds_type h3
    simp [h4]
  cases k <;> first | exact absurd rfl (h1 _) | exact absurd rfl (h2 _) | simp only [Kind.copied, this, if_true]

/-- After a merge. -/
theorem Inv.merge {x : Auid} (I : Inv lower P S T d) (k : Kind) (h : Arrived lower P S (merge d x k).2 x) : Inv lower P S T (merge d x k).2 := by
  have gm := merge_keeps (lower := lower) (P := P) d x k I.good
  refine ⟨gm.1, I.grow.trans gm.2, fun y => ?_⟩
  by_cases hy : y = x
  · rw [hy]; exact .inr h
  · rw [merge_other I.good k hy]
    exact (I.rest y).imp id fun h => h.mono gm.2

/-- A type that the dictionary has. -/
theorem arrive_known {n m : Nat} {x : Auid} {k : Kind} (F : Fit lower (kinds S) T P n x) (I : Inv lower P S T d) (hk : kinds S x = some k) (hd : kinds d x ≠ none) :
    Comes lower P S T n d x (bring S (m + 1) d x) := by
  obtain ⟨t, ht, rfl⟩ := kinds_type hk
  have hs : (d.type x).isSome = true := by
    cases h : d.type x with
    | none => exact absurd (by simp [kinds, h]) hd
    | some u => rfl
  have key : (merge d x t.kind).1 = .ok () ∧ Arrived lower P S (merge d x t.kind).2 x := by
    rcases I.rest x with h | h
    · exact arrived_known F I hk h (fun e => hd (h.trans e))
    · obtain ⟨k', h1, h2⟩ := h.shape _ hk
      exact ⟨merge_ok h1 h2, h.mono (merge_keeps (lower := lower) (P := P) d x t.kind I.good).2⟩
  have hb : bring S (m + 1) d x = (.ok true, (merge d x t.kind).2) := by
    simp only [bring, ht, hs, if_true]
    cases hm : merge d x t.kind with
    | mk r d1 =>
      rw [hm] at key
      have := key.1
      simp only at this
      subst this
      rfl
  rw [hb]
  refine ⟨rfl, I.merge _ key.2, key.2, fun y hy => ?_⟩
  by_cases h : y = x
  · rw [h]; exact F
  · exact absurd (merge_other I.good _ h) hy

theorem kinds_none (I : Inv lower P S T d) {x : Auid} (h : kinds d x = none) : T x = none := by
  cases hT : T x with
  | none => rfl
  | some k =>
    obtain ⟨k', h1, _⟩ := I.grow x k hT
    rw [h] at h1; cases h1

theorem arrive (cl : CleanEnums S) (own : ∀ a t, S.type a = some t → t.auid = a) (n : Nat) : ∀ x, Fit lower (kinds S) T P n x → ∀ d, Inv lower P S T d → ∀ m, n < m → Comes lower P S T n d x (bring S m d x) := by
  induction n with
  | zero =>
    intro x F d I m hm
    obtain ⟨k, hk⟩ := fit_source F
    obtain ⟨m, rfl⟩ : ∃ m', m = m' + 1 := ⟨m - 1, by omega⟩
    refine arrive_known F I hk fun h => ?_
    obtain ⟨_, h1, _⟩ := fit_parts F hk (kinds_none I h)
    cases h1
  | succ n ih =>
    intro x F d I m hm
    obtain ⟨k, hk⟩ := fit_source F
    obtain ⟨m, rfl⟩ : ∃ m', m = m' + 1 := ⟨m - 1, by omega⟩
    by_cases hx : kinds d x = none
    · by_cases F' : Fit lower (kinds S) T P n x
      · obtain ⟨h1, h2, h3, h4⟩ := ih x F' d I (m + 1) (by omega)
        exact ⟨h1, h2, h3, fun y hy => fit_mono n y (h4 y hy)⟩
      · obtain ⟨n', h1, hparts, he, hr, hset, hweak, hstrong⟩ := fit_parts F hk (kinds_none I hx)
        obtain rfl : n = n' := by omega
        obtain ⟨t, ht, rfl⟩ := kinds_type hk
        have hta := own x t ht
        have hdx : d.type x = none := by
          cases h : d.type x with
          | none => rfl
          | some u => simp [kinds, h] at hx
        obtain ⟨e1, e2, e3, e4⟩ := each_arrive (n := n) (bring_keeps cl own m) t.kind.parts (fun e he d I => ih e (hparts e he) d I m (by omega)) d I
        have hd1 : kinds (each (bring S m) d t.kind.parts).2 x = none := by
          cases h : kinds (each (bring S m) d t.kind.parts).2 x with
          | none => rfl
          | some k' => exact absurd (e4 x (by rw [h, hx]; simp)) F'
        generalize hE : each (bring S m) d t.kind.parts = E at e1 e2 e3 e4 hd1
        obtain ⟨r, d1⟩ := E
        simp only at e1 e2 e3 e4 hd1
        subst e1
        have hcop := copied_ok (S := S) hweak hset fun e he => fit_source (hparts e he)
        have hP : P t.auid = false := by
          cases hp : P t.auid with
          | false => rfl
          | true =>
            obtain ⟨u, h1, _⟩ := I.good.named _ hp
            rw [hta, hdx] at h1; cases h1
        have hch : t.auid ≠ charAuid := by
          intro e
          obtain ⟨u, h1, _⟩ := I.good.char
          rw [← e, hta, hdx] at h1; cases h1
        have G2 : Good P (d1.add ⟨t.auid, t.kind.className, t.kind⟩) :=
          good_add e2.good hP hch rfl fun e els h => cl x e els (by rw [hk]; exact congrArg some h)
        have K2 : ∀ y, kinds (d1.add ⟨t.auid, t.kind.className, t.kind⟩) y = if y = x then some t.kind else kinds d1 y := by
          intro y; rw [kinds_add e2.good, hta]
        have hb : bringNew (bring S m) S d t = (.ok (), d1.add ⟨t.auid, t.kind.className, t.kind⟩) := by
          simp only [bringNew, bringParts_plain hweak hstrong, hE, hcop]
        generalize d1.add ⟨t.auid, t.kind.className, t.kind⟩ = d2 at G2 K2 hb
        have K2x : kinds d2 x = some t.kind := by rw [K2, if_pos rfl]
        have g12 : Grow lower (kinds d1) (kinds d2) := by
          intro y ky hy
          refine ⟨ky, ?_, .inl rfl⟩
          rw [K2, if_neg (fun e => by rw [e, hd1] at hy; cases hy)]; exact hy
        have A2 : Arrived lower P S d2 x := arrived_new hk K2x (fun e he => (e3 e he).mono g12) he hr hset
        have I2 : Inv lower P S T d2 := by
          refine ⟨G2, e2.grow.trans g12, fun y => ?_⟩
          by_cases hy : y = x
          · rw [hy]; exact .inr A2
          · rw [K2, if_neg hy]; exact (e2.rest y).imp id fun h => h.mono g12
        have A3 := A2.mono (merge_keeps (lower := lower) (P := P) d2 x t.kind G2).2
        have hmo := merge_ok K2x (Shape.refl t.kind)
        have hfin : bring S (m + 1) d x = (.ok true, (merge d2 x t.kind).2) := by
          simp only [bring, ht, hdx, Option.isSome_none, Bool.false_eq_true, if_false, hb]
          cases hm : merge d2 x t.kind with
          | mk r d3 =>
            rw [hm] at hmo
            simp only at hmo
            subst hmo
            rfl
        rw [hfin]
        refine ⟨rfl, I2.merge _ A3, A3, fun y hy => ?_⟩
        by_cases h : y = x
        · rw [h]; exact F
        · simp only at hy
          rw [merge_other G2 _ h, K2, if_neg h] at hy
          exact fit_mono n y (e4 y hy)
    · exact arrive_known F I hk hx

end Verif.TDict
