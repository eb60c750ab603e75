import Verif.Lemmas.VolSolid
/-!
# Every call that takes nothing away keeps the directory trees red-black
-/
namespace Verif.Volume
open Verif.Tree (op PlainCall Grow)
open Verif.Rb (Name)
open Verif.PathTree hiding Name AStep

variable {up : Name → Name} {n : Nat}

/-- The loop of `makedirs` in the container and in the tree alone. -/
theorem mkdirs_tree : ∀ (r : List Name) {root : Name} {v : Vol} {x : Res Tree.Out × Vol}, mkdirs up v root r = .ok x →
    (Tree.mkLoop v.tree up root r).2 = x.2.tree ∧ ((Tree.mkLoop v.tree up root r).1 = .ok () ↔ x.1 = .ok .unit) ∧
      ∀ y, x.1 = .ok y → y = .unit
  | [], root, v, x, h => by
    simp only [mkdirs] at h
    cases h
    exact ⟨rfl, by simp [Tree.mkLoop], by rintro y h; cases h; rfl⟩
  | item :: r, root, v, x, h => by
    rw [mkdirs] at h
    dsimp only at h
    cases h1 : dirCall up v (.exist (root ++ '/' :: item)) with
    | error e => rw [h1] at h; cases h
    | ok a =>
      obtain ⟨a, v1⟩ := a
      have s1 := dirCall_step h1
      rw [h1] at h
      simp only [bind, Except.bind] at h
      simp only [Tree.step, Tree.Ret.as, Prod.mk.injEq] at s1
      obtain ⟨e1, e2⟩ := s1
      rw [Tree.mkLoop]
      cases hx : Tree.exist v.tree (root ++ '/' :: item) with
      | mk b s =>
        rw [hx] at e1 e2
        dsimp only at e1 e2
        subst e2
        cases b with
        | error e =>
          cases e1
          cases h
          exact ⟨rfl, by simp, by rintro y h; cases h⟩
        | ok b =>
          cases e1
          cases b with
          | true => exact mkdirs_tree r h
          | false =>
            dsimp only at h ⊢
            cases h2 : dirCall up v1 (.create (root ++ '/' :: item) 1) with
            | error e => rw [h2] at h; cases h
            | ok a2 =>
              obtain ⟨a2, v2⟩ := a2
              have s2 := dirCall_step h2
              rw [h2] at h
              dsimp only at h
              simp only [Tree.step, Tree.Ret.as, Prod.mk.injEq] at s2
              obtain ⟨f1, f2⟩ := s2
              cases hy : Tree.create v1.tree up (root ++ '/' :: item) 1 with
              | mk c s =>
                rw [hy] at f1 f2
                dsimp only at f1 f2
                subst f2
                cases c with
                | error e =>
                  cases f1
                  cases h
                  exact ⟨rfl, by simp, by rintro y h; cases h⟩
                | ok c =>
                  cases f1
                  exact mkdirs_tree r h

/-- A call on paths changes the tree as on the tree alone. -/
theorem pathCall_tree {v : Vol} {o : Tree.Op} {x : Res Tree.Out × Vol} (h : pathCall up v o = .ok x) :
    x.2.tree = (Tree.step up v.tree o).2 := by
  by_cases hm : ∃ p, o = .makedirs p
  · obtain ⟨p, rfl⟩ := hm
    show _ = (Tree.makedirs v.tree up p).2
    simp only [pathCall] at h
    unfold makedirs at h
    unfold Tree.makedirs
    split at h
    · rename_i hp
      cases h
      rw [if_pos hp]
    · rename_i hp
      rw [if_neg hp]
      cases h1 : mkdirs up v [] (Tree.split (Tree.strip p)) with
      | error e => rw [h1] at h; cases h
      | ok a =>
        obtain ⟨a, v1⟩ := a
        rw [h1] at h
        simp only [bind, Except.bind] at h
        obtain ⟨e1, e2, e3⟩ := mkdirs_tree _ h1
        cases hl : Tree.mkLoop v.tree up [] (Tree.split (Tree.strip p)) with
        | mk b s =>
          rw [hl] at e1 e2
          dsimp only at e1 e2 e3
          subst e1
          cases a with
          | error e =>
            cases h
            cases b with
            | error e => rfl
            | ok u => have := e2.1 rfl; cases this
          | ok y =>
            have := e3 y rfl
            subst this
            cases b with
            | error e => have := e2.2 rfl; cases this
            | ok u =>
              have := dirCall_step h
              simp only [Tree.step, Tree.Ret.as, Prod.mk.injEq] at this
              exact this.2.symm
  · have : pathCall up v o = dirCall up v o := by
      cases o <;> first | rfl | exact absurd ⟨_, rfl⟩ hm
    rw [this] at h
    exact dirCall_tree (r := x.1) h

theorem pathCall_solid {v : Vol} {A : AVol} (V : VRel up n v A) (hs : Solid v) {c : Call} (hc : PlainCall c)
    (ho : ¬ Odd up A.tree c) (hg : Grow c) {x : Res Tree.Out × Vol} (h : pathCall up v (op c) = .ok x) :
    x.2.tree.broken = false ∧ Solid x.2 := by
  obtain ⟨kids, tt, R⟩ := V.tree
  have ht := pathCall_tree h
  rcases R.step hc with h1 | ⟨_, h1⟩ | ⟨A', kids', t', _, h2, h3⟩
  · exact absurd h1 ho
  · exact absurd ((solid_iff R).1 hs) (h1 hg)
  · rw [← ht] at h2
    exact ⟨h2.ok, (solid_iff h2).2 (h3 hg ((solid_iff R).1 hs))⟩

end Verif.Volume
