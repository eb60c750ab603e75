import Verif.Lemmas.VolStep
/-!
# Histories that take nothing away never break a directory tree
-/
namespace Verif.Volume
open Verif.Tree (op PlainCall Grow)
open Verif.Rb (Name)
open Verif.PathTree hiding Name AStep

variable {up : Name → Name} {n : Nat}

theorem dirCall_tree {v v' : Vol} {o : Tree.Op} {r : Res Tree.Out} (h : dirCall up v o = .ok (r, v')) :
    v'.tree = (Tree.step up v.tree o).2 := by
  unfold dirCall at h
  dsimp only at h
  split at h
  · cases h; rfl
  · split at h
    · cases h
    · simp only [bind, Except.bind] at h
      repeat' split at h
      all_goals (cases h)
      rfl

/-- A call that takes nothing away. -/
theorem dirCall_solid {v v' : Vol} {A : AVol} (V : VRel up n v A) (hs : Solid v) {c : Call} (hc : PlainCall c)
    (ho : ¬ Odd up A.tree c) (hg : Grow c) {r : Res Tree.Out} (h : dirCall up v (op c) = .ok (r, v')) :
    v'.tree.broken = false ∧ Solid v' := by
  obtain ⟨kids, tt, R⟩ := V.tree
  have ht := dirCall_tree h
  rcases R.step hc with h1 | ⟨_, h1⟩ | ⟨A', kids', t', _, h2, h3⟩
  · exact absurd h1 ho
  · exact absurd ((solid_iff R).1 hs) (h1 hg)
  · rw [← ht] at h2
    exact ⟨h2.ok, (solid_iff h2).2 (h3 hg ((solid_iff R).1 hs))⟩

theorem grow_find (p : Path) : Grow (.find p) := ⟨by intros; simp, by intros; simp, by intros; simp⟩
theorem grow_create (p : Path) (k : Bool) : Grow (.create p k) := ⟨by intros; simp, by intros; simp, by intros; simp⟩

/-- Same entries. -/
theorem Solid.of_tree {v v' : Vol} (h : v'.tree = v.tree) (hs : Solid v) : Solid v' := by
  unfold Solid; rw [h]; exact hs

theorem find_solid {v v' : Vol} {A : AVol} (V : VRel up n v A) (hs : Solid v) {p : Path} (hp : Plain p) {r : Res Tree.Out}
    (h : dirCall up v (.find (text p)) = .ok (r, v')) : v'.tree.broken = false ∧ Solid v' :=
  dirCall_solid V hs (c := .find p) (by intro q hq; simp [Call.paths] at hq; exact hq ▸ hp) (fun h => h) (grow_find p) h

theorem create_solid {v v' : Vol} {A : AVol} (V : VRel up n v A) (hs : Solid v) {p : Path} {k : Bool} (hp : Plain p)
    (ho : ¬ Odd up A.tree (.create p k)) {r : Res Tree.Out}
    (h : dirCall up v (.create (text p) (if k then 1 else 2)) = .ok (r, v')) : v'.tree.broken = false ∧ Solid v' :=
  dirCall_solid V hs (c := .create p k) (by intro q hq; simp [Call.paths] at hq; exact hq ▸ hp) ho (grow_create p k) h

theorem openOld_tree {v v' : Vol} {e : Nat} {m : Mode} {r : Res Tree.Out} (h : openOld v e m = .ok (r, v')) :
    v'.tree = v.tree := by
  unfold openOld at h
  split at h
  · cases h; rfl
  · cases m with
    | w =>
      simp only [bind, Except.bind, setStamp] at h
      repeat' split at h
      all_goals (cases h)
      rename_i heq
      split at heq
      · cases heq
      · cases heq; rfl
    | other => cases h; rfl
    | r =>
      simp only [bind, Except.bind] at h
      repeat' split at h
      all_goals (cases h)
      rfl
    | rw =>
      simp only [bind, Except.bind] at h
      repeat' split at h
      all_goals (cases h)
      rfl

/-- `open`. -/
theorem openPath_solid {v v' : Vol} {A : AVol} (V : VRel up n v A) (hs : Solid v) {p : Path} (hp : Plain p) (m : Mode)
    (hb : ¬ Bad up A (.open p m.abs)) {r : Res Tree.Out} (h : openPath up v (text p) m = .ok (r, v')) :
    v'.tree.broken = false ∧ Solid v' := by
  unfold openPath at h
  have hf := dirCall_find V hp
  rcases hf with hf | ⟨⟨x, v1⟩, hf, V1, h1, h2⟩
  · simp only [hf, bind, Except.bind] at h; cases h
  · obtain ⟨b1, s1⟩ := find_solid V hs hp hf
    simp only [hf, bind, Except.bind] at h
    dsimp only at V1 h1 h2
    have same : ∀ {w : Vol}, w.tree = v1.tree → w.tree.broken = false ∧ Solid w :=
      fun hw => ⟨by rw [hw]; exact b1, s1.of_tree hw⟩
    by_cases hbl : Blocked A.tree p
    · rw [h1 hbl] at h
      cases h
      exact same rfl
    · rw [h2 hbl] at h
      cases hA : A.tree p with
      | some be =>
        rw [hA] at h
        exact same (openOld_tree h)
      | none =>
        rw [hA] at h
        dsimp only [Option.map_none] at h
        by_cases hm : m = .r
        · rw [if_pos hm] at h; cases h; exact same rfl
        · rw [if_neg hm] at h
          have hm' : m.abs ≠ .r := by cases m <;> simp_all [Mode.abs]
          have ho : ¬ Odd up A.tree (.create p false) := fun h => hb ⟨hA, hm', .inl h⟩
          cases hc : dirCall up v1 (.create (text p) 2) with
          | error er => rw [hc] at h; cases h
          | ok y =>
            obtain ⟨y, v2⟩ := y
            obtain ⟨b2, s2⟩ := create_solid V1 s1 (k := false) hp ho hc
            rw [hc] at h
            dsimp only at h
            cases y with
            | error er => cases h; exact ⟨b2, s2⟩
            | ok y =>
              dsimp only at h
              split at h <;> (cases h; exact ⟨b2, s2⟩)

theorem newVol_solid {ss : Nat} (hss : ss = 512 ∨ ss = 4096) {f : Bytes} {v : Vol} (h : newVol ss f = .ok v) : Solid v := by
  have hper : 0 < ss / 128 := by rcases hss with rfl | rfl <;> decide
  obtain ⟨R, hR⟩ := Tree.rel_new id hper
  have hv : v.tree = Tree.new (ss / 128) := by
    unfold newVol at h
    cases hc : Fat.newCfb ss f with
    | error e => rw [hc] at h; cases h
    | ok c => rw [hc] at h; cases h; rfl
  rw [← hv] at R
  exact (solid_iff R).2 hR

/-- No two paths have the same entry. -/
theorem VRel.uniq {v : Vol} {A : AVol} (V : VRel up n v A) {p q : Path} {b c : Bool} {e : Nat}
    (hp : A.tree p = some (b, e)) (hq : A.tree q = some (c, e)) : p = q := by
  obtain ⟨kids, tt, R⟩ := V.tree
  exact R.inv.shape.uniq (R.at.1 hp).1 (R.at.1 hq).1

end Verif.Volume
