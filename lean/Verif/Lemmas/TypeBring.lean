import Verif.Lemmas.TypeGrow
import Verif.Lemmas.MetaBase
/-!
# Types: what is there stays
-/
namespace Verif.TDict
open Verif.Meta (Auid Name get put get_put)
open Verif.Types (Ty Fields)
open Verif.Utf16 (Str)
open Verif.Spec.TDict

variable {lower : Str → Str} {P : Names} {d : Dict}

theorem className_mem (k : Kind) : k.className ∈ classNames := by
  cases k with
  | plain p => cases p <;> decide
  | _ => simp [Kind.className, classNames]

theorem characterName_not : characterName ∉ classNames := by decide

theorem type_add (G : Good P d) (t : TDef) (x : Auid) : (d.add t).type x = if x = t.auid then some t else d.type x := by
  simp only [Dict.type, Dict.add, get_put]
  by_cases h : x = t.auid
  · simp [h]
  · rw [if_neg h, if_neg h]
    cases hg : get d.byAuid x with
    | none => rfl
    | some i => simp only [Option.bind_some]; rw [List.getElem?_append_left (G.low x i hg)]

theorem kinds_add (G : Good P d) (t : TDef) (x : Auid) : kinds (d.add t) x = if x = t.auid then some t.kind else kinds d x := by
  simp only [kinds, type_add G]
  split <;> rfl

/-- A definition with the name of its class is added. -/
theorem good_add (G : Good P d) {t : TDef} (hP : P t.auid = false) (hc : t.auid ≠ charAuid) (hn : t.name = t.kind.className) (cl : ∀ e els, t.kind = .enum e els → Clean id els) : Good P (d.add t) := by
  have hn' : t.name ∈ classNames := hn ▸ className_mem t.kind
  refine ⟨?_, ?_, ?_, ?_, ?_, ?_⟩
  · intro a i h
    simp only [Dict.add, get_put, List.length_append, List.length_singleton] at h ⊢
    split at h
    · simp only [Option.some.injEq] at h; omega
    · have := G.low a i h; omega
  · intro a u h
    rw [type_add G] at h
    split at h
    · rename_i e; simp only [Option.some.injEq] at h; rw [e, h]
    · exact G.own a u h
  · intro a ha
    obtain ⟨u, h1, h2, h3⟩ := G.named a ha
    have : a ≠ t.auid := fun e => by rw [e, hP] at ha; cases ha
    refine ⟨u, by rw [type_add G, if_neg this]; exact h1, ?_, h3⟩
    simp only [Dict.add, get_put]
    rw [if_neg (fun (e : u.name = t.name) => h3 (e ▸ hn')), if_neg this]
    exact h2
  · obtain ⟨u, h1, h2⟩ := G.char
    exact ⟨u, by rw [type_add G, if_neg (fun e => hc e.symm)]; exact h1, h2⟩
  · intro a u h h2
    rw [type_add G] at h
    split at h
    · simp only [Option.some.injEq] at h
      subst h
      exact absurd (h2 ▸ hn') characterName_not
    · exact G.chars a u h h2
  · intro a e els h
    rw [kinds_add G] at h
    split at h
    · simp only [Option.some.injEq] at h; exact cl e els h
    · exact G.clean a e els h

/-- A definition gets another kind. -/
def Dict.rekind (d : Dict) (i : Nat) (t : TDef) (k : Kind) : Dict := { d with heap := d.heap.set i { t with kind := k } }

theorem type_rekind (G : Good P d) {a : Auid} {i : Nat} {t : TDef} (hi : get d.byAuid a = some i) (ht : d.heap[i]? = some t) (k : Kind) (x : Auid) :
    (d.rekind i t k).type x = if x = a then some { t with kind := k } else d.type x := by
  have hlt := G.low a i hi
  simp only [Dict.type, Dict.rekind]
  by_cases h : x = a
  · rw [if_pos h, h, hi]
    simp [List.getElem?_set_self hlt]
  · rw [if_neg h]
    cases hg : get d.byAuid x with
    | none => rfl
    | some j =>
      simp only [Option.bind_some]
      have : i ≠ j := by
        intro e
        subst e
        have h1 := G.own x t (by simp [Dict.type, hg, ht])
        have h2 := G.own a t (by simp [Dict.type, hi, ht])
        exact h (h1.symm.trans h2)
      rw [List.getElem?_set_ne this]

theorem kinds_rekind (G : Good P d) {a : Auid} {i : Nat} {t : TDef} (hi : get d.byAuid a = some i) (ht : d.heap[i]? = some t) (k : Kind) (x : Auid) :
    kinds (d.rekind i t k) x = if x = a then some k else kinds d x := by
  simp only [kinds, type_rekind G hi ht]
  split <;> rfl

theorem good_rekind (G : Good P d) {a : Auid} {i : Nat} {t : TDef} (hi : get d.byAuid a = some i) (ht : d.heap[i]? = some t) {k : Kind} (cl : ∀ e els, k = .enum e els → Clean id els) : Good P (d.rekind i t k) := by
  have hta : d.type a = some t := by simp [Dict.type, hi, ht]
  refine ⟨?_, ?_, ?_, ?_, ?_, ?_⟩
  · intro x j h
    have := G.low x j h
    simpa [Dict.rekind] using this
  · intro x u h
    rw [type_rekind G hi ht] at h
    split at h
    · rename_i e; simp only [Option.some.injEq] at h; rw [← h, e]; exact G.own a t hta
    · exact G.own x u h
  · intro x hx
    obtain ⟨u, h1, h2, h3⟩ := G.named x hx
    rw [type_rekind G hi ht]
    split
    · rename_i e
      subst e
      rw [hta] at h1
      simp only [Option.some.injEq] at h1
      subst h1
      exact ⟨_, rfl, h2, h3⟩
    · exact ⟨u, h1, h2, h3⟩
  · obtain ⟨u, h1, h2⟩ := G.char
    rw [type_rekind G hi ht]
    split
    · rename_i e
      rw [e, hta] at h1
      simp only [Option.some.injEq] at h1
      subst h1
      exact ⟨_, rfl, h2⟩
    · exact ⟨u, h1, h2⟩
  · intro x u h h2
    rw [type_rekind G hi ht] at h
    split at h
    · rename_i e
      simp only [Option.some.injEq] at h
      rw [e]
      exact G.chars a t hta (by rw [← h] at h2; exact h2)
    · exact G.chars x u h h2
  · intro x e els h
    rw [kinds_rekind G hi ht] at h
    split at h
    · simp only [Option.some.injEq] at h; exact cl e els h
    · exact G.clean x e els h

/-- What a call may do: it keeps the dictionary good and what is there. -/
def Keeps (lower : Str → Str) (P : Names) (d d' : Dict) : Prop := Good P d → Good P d' ∧ Grow lower (kinds d) (kinds d')

theorem Keeps.refl (d : Dict) : Keeps lower P d d := fun G => ⟨G, Grow.refl _⟩

theorem Keeps.trans {d d' d'' : Dict} (h : Keeps lower P d d') (g : Keeps lower P d' d'') : Keeps lower P d d'' := fun G =>
  have h1 := h G
  have h2 := g h1.1
  ⟨h2.1, h1.2.trans h2.2⟩

theorem Keeps.classes (d : Dict) (cs : List CDef) : Keeps lower P d { d with classes := cs } := fun G =>
  ⟨⟨G.low, G.own, G.named, G.char, G.chars, G.clean⟩, Grow.refl _⟩

/-- The merge: nothing happens, or the definition gets elements. -/
theorem merge_cases (d : Dict) (a : Auid) (k : Kind) : (merge d a k).2 = d ∨
    ∃ i t, get d.byAuid a = some i ∧ d.heap[i]? = some t ∧ (merge d a k).1 = .ok () ∧
      ((∃ e els e' src, t.kind = .enum e els ∧ k = .enum e' src ∧ (merge d a k).2 = d.rekind i t (.enum e (mergeCodes els src))) ∨
       (∃ els src, t.kind = .ext els ∧ k = .ext src ∧ (merge d a k).2 = d.rekind i t (.ext (mergeKeys els src)))) := by
  cases hi : get d.byAuid a with
  | none => left; cases k <;> simp [merge, hi]
  | some i =>
    cases ht : d.heap[i]? with
    | none => left; cases k <;> simp [merge, hi, ht]
    | some t =>
      cases k with
      | enum e' src =>
        cases hk : t.kind with
        | enum e els => right; exact ⟨i, t, rfl, ht, by simp [merge, hi, ht, hk], .inl ⟨e, els, e', src, hk, rfl, by simp [merge, hi, ht, hk, Dict.rekind]⟩⟩
        | _ => left; simp [merge, hi, ht, hk]
      | ext src =>
        cases hk : t.kind with
        | ext els => right; exact ⟨i, t, rfl, ht, by simp [merge, hi, ht, hk], .inr ⟨els, src, hk, rfl, by simp [merge, hi, ht, hk, Dict.rekind]⟩⟩
        | _ => left; simp [merge, hi, ht, hk]
      | _ => left; simp [merge]

theorem merge_keeps (d : Dict) (a : Auid) (k : Kind) : Keeps lower P d (merge d a k).2 := by
  intro G
  rcases merge_cases d a k with h | ⟨i, t, hi, ht, _, h⟩
  · rw [h]; exact ⟨G, Grow.refl _⟩
  · have hta : kinds d a = some t.kind := by simp [kinds, Dict.type, hi, ht]
    rcases h with ⟨e, els, e', src, h1, rfl, h2⟩ | ⟨els, src, h1, rfl, h2⟩
    · rw [h2]
      rw [h1] at hta
      obtain ⟨c, f⟩ := mergeCodes_kept (G.clean a e els hta) src
      refine ⟨good_rekind G hi ht (fun _ _ h => by cases h; exact c), ?_⟩
      intro x kx hx
      rw [kinds_rekind G hi ht]
      by_cases hxa : x = a
      · rw [if_pos hxa]
        rw [hxa, hta] at hx
        cases hx
        exact ⟨_, rfl, .inr (.inl ⟨e, _, _, rfl, rfl, f⟩)⟩
      · rw [if_neg hxa]; exact ⟨kx, hx, .inl rfl⟩
    · rw [h2]
      rw [h1] at hta
      refine ⟨good_rekind G hi ht (fun _ _ h => by cases h), ?_⟩
      intro x kx hx
      rw [kinds_rekind G hi ht]
      by_cases hxa : x = a
      · rw [if_pos hxa]
        rw [hxa, hta] at hx
        cases hx
        exact ⟨_, rfl, .inr (.inr ⟨_, _, rfl, rfl, mergeKeys_kept els src⟩)⟩
      · rw [if_neg hxa]; exact ⟨kx, hx, .inl rfl⟩

theorem each_keeps {f : Dict → Auid → Res Bool × Dict} (hf : ∀ d a, Keeps lower P d (f d a).2) (l : List Auid) : ∀ d, Keeps lower P d (each f d l).2 := by
  induction l with
  | nil => intro d; exact Keeps.refl d
  | cons a l ih =>
    intro d
    have h := hf d a
    simp only [each]
    cases hr : f d a with
    | mk r d' =>
      rw [hr] at h
      cases r with
      | error e => exact h
      | ok b => exact h.trans (ih d')

theorem bringProps_keeps {f : Dict → Auid → Res Bool × Dict} (hf : ∀ d a, Keeps lower P d (f d a).2) (c : Auid) (l : List (Auid × Auid)) : ∀ d, Keeps lower P d (bringProps f d c l).2 := by
  induction l with
  | nil => intro d; exact Keeps.refl d
  | cons p l ih =>
    intro d
    have h := hf d p.2
    simp only [bringProps]
    cases hr : f d p.2 with
    | mk r d' =>
      rw [hr] at h
      cases r with
      | error e => exact h
      | ok b =>
        cases b with
        | false => exact h
        | true => exact (h.trans (Keeps.classes d' _)).trans (ih _)

theorem bringClasses_keeps {f : Dict → Auid → Res Bool × Dict} (hf : ∀ d a, Keeps lower P d (f d a).2) (l : List CDef) : ∀ d, Keeps lower P d (bringClasses f d l).2 := by
  induction l with
  | nil => intro d; exact Keeps.refl d
  | cons c l ih =>
    intro d
    have h0 : Keeps lower P d (if (d.cls c.auid).isSome then d else { d with classes := d.classes ++ [⟨c.auid, c.parent, []⟩] }) := by
      split
      · exact Keeps.refl d
      · exact Keeps.classes d _
    have h := h0.trans (bringProps_keeps hf c.auid c.props _)
    simp only [bringClasses]
    cases hr : bringProps f (if (d.cls c.auid).isSome then d else { d with classes := d.classes ++ [⟨c.auid, c.parent, []⟩] }) c.auid c.props with
    | mk r d' =>
      rw [hr] at h
      cases r with
      | error e => exact h
      | ok b => exact h.trans (ih d')

theorem bringClass_keeps {f : Dict → Auid → Res Bool × Dict} (hf : ∀ d a, Keeps lower P d (f d a).2) (S d : Dict) (c : Auid) : Keeps lower P d (bringClass f S d c).2 := by
  simp only [bringClass]
  split
  · exact Keeps.refl d
  · exact bringClasses_keeps hf _ d

theorem bringParts_keeps {f : Dict → Auid → Res Bool × Dict} (hf : ∀ d a, Keeps lower P d (f d a).2) (S d : Dict) (k : Kind) : Keeps lower P d (bringParts f S d k).2 := by
  cases k <;> first | exact bringClass_keeps hf S d _ | exact each_keeps hf _ d

theorem copied_eq {S : Dict} {k k' : Kind} (h : k.copied S = .ok k') : k' = k := by
  cases k <;> simp only [Kind.copied] at h <;> first | (cases h; done) | (split at h <;> first | (cases h; rfl) | cases h)

/-- The enumerations of a file have no value and no name twice. -/
def CleanEnums (S : Dict) : Prop := ∀ a e els, kinds S a = some (.enum e els) → Clean id els

theorem bringNew_keeps {f : Dict → Auid → Res Bool × Dict} (hf : ∀ d a, Keeps lower P d (f d a).2) {S : Dict} (cl : CleanEnums S) (d : Dict) {a : Auid} {t : TDef} (ht : S.type a = some t) (ha : t.auid = a) (hd : d.type a = none) :
    Keeps lower P d (bringNew f S d t).2 := by
  intro G
  have h := bringParts_keeps hf S d t.kind G
  simp only [bringNew]
  cases hr : bringParts f S d t.kind with
  | mk r d1 =>
    rw [hr] at h
    cases r with
    | error e => exact h
    | ok b =>
      simp only
      cases hc : t.kind.copied S with
      | error e => exact h
      | ok k =>
        have := copied_eq hc
        subst this
        have hP : P t.auid = false := by
          cases hp : P t.auid with
          | false => rfl
          | true =>
            obtain ⟨u, h1, _⟩ := G.named _ hp
            rw [ha, hd] at h1; cases h1
        have hch : t.auid ≠ charAuid := by
          intro e
          obtain ⟨u, h1, _⟩ := G.char
          rw [← e, ha, hd] at h1; cases h1
        refine ⟨good_add h.1 hP hch rfl fun e els hk => ?_, ?_⟩
        · exact cl a e els (by simp only [kinds, ht, Option.map_some]; rw [← hk])
        · intro x kx hx
          obtain ⟨k', h1, h2⟩ := h.2 x kx hx
          have : x ≠ t.auid := by
            intro e
            rw [e, ha] at hx
            simp only [kinds, hd] at hx
            cases hx
          exact ⟨k', by rw [kinds_add h.1, if_neg this]; exact h1, h2⟩

/-- Whatever is brought, and however it ends, what is there stays. -/
theorem bring_keeps {S : Dict} (cl : CleanEnums S) (own : ∀ a t, S.type a = some t → t.auid = a) (n : Nat) : ∀ d a, Keeps lower P d (bring S n d a).2 := by
  induction n with
  | zero => intro d a; exact Keeps.refl d
  | succ n ih =>
    intro d a
    simp only [bring]
    cases hs : S.type a with
    | none => exact Keeps.refl d
    | some t =>
      simp only
      have h0 : Keeps lower P d (if (d.type a).isSome then (.ok (), d) else bringNew (bring S n) S d t : Res Unit × Dict).2 := by
        split
        · exact Keeps.refl d
        · rename_i h
          exact bringNew_keeps ih cl d hs (own a t hs) (by simpa using h)
      revert h0
      generalize (if (d.type a).isSome then (.ok (), d) else bringNew (bring S n) S d t : Res Unit × Dict) = r
      intro h0
      obtain ⟨r, d1⟩ := r
      cases r with
      | error e => exact h0
      | ok b =>
        simp only
        have h1 := merge_keeps (lower := lower) (P := P) d1 a t.kind
        cases hm : merge d1 a t.kind with
        | mk r2 d2 =>
          rw [hm] at h1
          cases r2 with
          | error e => exact h0.trans h1
          | ok b => exact h0.trans h1

end Verif.TDict
