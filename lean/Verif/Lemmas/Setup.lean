import Verif.Lemmas.StreamTrunc
/-!
# A new file is consistent
-/
namespace Verif.Fat
open Verif.Chain

/-- The chains of a new file: only the directory has a sector. -/
def ch0 : Own → List Nat
  | .dir => [0]
  | _ => []

theorem setup_fat {n : Nat} (hn : 2 ≤ n) (x : Nat) :
    (((List.replicate n FREESECT).set 0 ENDOFCHAIN).set 1 FATSECT)[x]? =
      if x = 0 then some ENDOFCHAIN else if x = 1 then some FATSECT else
        if x < n then some FREESECT else none := by
  rcases x with _ | _ | x
  · have : 0 < n := by omega
    simp [this]
  · have : 1 < n := by omega
    simp [this]
  · simp [List.getElem?_replicate]

theorem coh_init (n : Nat) (P : Nat → Bytes → Prop) (c : Lru.Cache Nat Bytes) (h : c = Lru.init n) :
    Lru.CacheOk n P c := by
  subst h; exact Lru.CacheOk.init P

theorem setupEmpty_inv (ss : Nat) (hss : ss = 512 ∨ ss = 4096) (f : Bytes) :
    SInv (setupEmpty ss f) ch0 (fun _ => []) := by
  have hn : 2 ≤ ss / 4 ∧ ss / 4 ≤ 1024 := by rcases hss with h | h <;> subst h <;> omega
  have hget := setup_fat hn.1
  have hlen : (setupEmpty ss f).fat.length = ss / 4 := by simp [setupEmpty]
  have hmem : ∀ x, x ∈ (setupEmpty ss f).free ↔ 2 ≤ x ∧ x < ss / 4 := by
    intro x; simp only [setupEmpty, List.mem_range'_1]; omega
  have hd : DInv (setupEmpty ss f) [1] [] := by
    constructor
    · exact ⟨_, [], rfl, by simp, by simp, rfl, Or.inl ⟨rfl, by simp only [setupEmpty]; decide⟩⟩
    · exact ⟨108, by simp [setupEmpty, entries]⟩
    · rfl
    · rw [hlen]; simp [setupEmpty]
    · intro x hx; simp at hx; subst hx; simp only [setupEmpty]; rw [hget]; rfl
    · simp
    · rfl
    · simp
    · simp
    · intro _; rw [RL_eq]; simp
  have hRL : (setupEmpty ss f).fat[RANGELOCKSECT]? = none := by
    apply List.getElem?_eq_none; rw [hlen, RL_eq]; omega
  refine ⟨⟨⟨[1], [], [1], ?_⟩, ?_, ?_, ?_, ?_, ?_, ?_, ?_, ?_, ?_⟩, ?_, ?_⟩
  · constructor
    · exact hss
    · exact hd
    · constructor
      · intro o
        cases o <;> try trivial
        refine ⟨rfl, by decide, ENDOFCHAIN, ?_, rfl⟩
        simp only [setupEmpty]; rw [hget]; rfl
      · intro o o' x h1 h2
        cases o <;> cases o' <;> simp [ch0] at h1 h2 ⊢
      · simp only [List.nil_append, setupEmpty]; exact List.nodup_range'
      · intro x
        simp only [List.nil_append]
        rw [hmem]; simp only [setupEmpty]; rw [hget]
        split
        · subst_vars; simp; decide
        · split
          · subst_vars; simp; decide
          · split
            · simp; omega
            · simp; omega
      · intro x hx
        rw [hlen] at hx
        simp only [List.nil_append]
        rw [hmem]
        rcases x with _ | _ | x
        · exact Or.inr (Or.inr ⟨.dir, by simp [ch0]⟩)
        · exact Or.inr (Or.inl (by simp))
        · exact Or.inl (by omega)
      · intro x hx
        simp at hx; subst hx
        refine ⟨?_, ?_, by rw [hlen]; omega⟩
        · intro o; cases o <;> simp [ch0]
        · simp only [List.nil_append]; rw [hmem]; omega
      · rw [hlen]; simp only [MAXREGSECT]; omega
    · intro x
      constructor
      · intro h; exact Or.inl h
      · rintro (h | h | ⟨rfl, _, h, _⟩)
        · exact h
        · simp at h
        · rw [hRL] at h; cases h
    · intro _
      refine ⟨by simp, ?_⟩
      intro o; cases o <;> simp [ch0, RL_eq]
  · constructor <;> simp [setupEmpty, Linked]
  · exact ⟨rfl, by simp [setupEmpty], rfl⟩
  · exact ⟨rfl, rfl⟩
  · exact ⟨rfl, rfl, Or.inr ⟨rfl, Or.inl rfl⟩⟩
  · simp [setupEmpty]
  · exact ⟨[], by simp [setupEmpty], by simp⟩
  · simp
  · simp
  · simp [covered, setupEmpty]
  · exact coh_init 512 _ _ (by simp only [setupEmpty])
  · intro j _
    refine ⟨fun _ => rfl, fun _ => rfl, ?_, ?_⟩
    · simp [chainOf, setupEmpty, MINMAX]
    · simp [setupEmpty]

end Verif.Fat
