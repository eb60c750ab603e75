import Verif.Model.DirTree
/-!
# What calls on paths leave of ids, types and the list of free ids
-/
namespace Verif.Tree
open Verif.Rb

/-- Types and the number of sectors are the same. -/
structure Frm0 (s s' : St) : Prop where
  typ : s'.typ = s.typ
  sectors : s'.sectors = s.sectors
  per : s'.per = s.per

/-- The free ids as well. -/
structure Frm (s s' : St) : Prop extends Frm0 s s' where
  free : s'.free = s.free

theorem Frm0.refl (s : St) : Frm0 s s := ⟨rfl, rfl, rfl⟩
theorem Frm.refl (s : St) : Frm s s := ⟨.refl s, rfl⟩

theorem Frm0.trans {a b c : St} (h : Frm0 a b) (k : Frm0 b c) : Frm0 a c :=
  ⟨k.typ.trans h.typ, k.sectors.trans h.sectors, k.per.trans h.per⟩

theorem Frm.trans {a b c : St} (h : Frm a b) (k : Frm b c) : Frm a c :=
  ⟨h.toFrm0.trans k.toFrm0, k.free.trans h.free⟩

theorem listDict_frm (s : St) (i : Nat) : Frm s (listDict s i).2 := by
  unfold listDict
  split
  · exact .refl s
  · split
    · exact ⟨⟨rfl, rfl, rfl⟩, rfl⟩
    · dsimp only
      split <;> exact ⟨⟨rfl, rfl, rfl⟩, rfl⟩

theorem findLoop_frm : ∀ (l : List Name) (s : St) (i : Nat), Frm s (findLoop s i l).2
  | [], s, _ => .refl s
  | n :: r, s, i => by
    have h := listDict_frm s i
    unfold findLoop
    split
    · rename_i h1; rw [h1] at h; exact h
    · rename_i h1
      rw [h1] at h
      split
      · exact h
      · split
        · exact h
        · exact h.trans (findLoop_frm r _ _)

theorem find_frm (s : St) (p : Name) : Frm s (find s p).2 := by
  unfold find
  split
  · exact .refl s
  · exact findLoop_frm _ _ _

theorem exist_frm (s : St) (p : Name) : Frm s (exist s p).2 := by
  have h := find_frm s p
  unfold exist
  split <;> rename_i h1 <;> rw [h1] at h <;> exact h

theorem listPath_frm (s : St) (p : Name) : Frm s (listPath s p).2 := by
  have h := find_frm s p
  unfold listPath
  split <;> rename_i h1 <;> rw [h1] at h
  · exact h
  · exact h
  · exact h.trans (listDict_frm _ _)

theorem cacheAdd_frm (s : St) (i : Nat) (n : Name) (e : Nat) : Frm s (cacheAdd s i n e) := by
  unfold cacheAdd
  split
  · split <;> exact ⟨⟨rfl, rfl, rfl⟩, rfl⟩
  · exact .refl s

theorem cacheDel_frm (s : St) (i : Nat) (n : Name) : Frm s (cacheDel s i n).2 := by
  unfold cacheDel
  split
  · split
    · split <;> exact ⟨⟨rfl, rfl, rfl⟩, rfl⟩
    · exact ⟨⟨rfl, rfl, rfl⟩, rfl⟩
  · exact .refl s

theorem addChild_frm (s : St) (up : Name → Name) (i e : Nat) :
    Frm s (addChild s up i e).2 ∧ ((∃ er, (addChild s up i e).1 = .error er) → (addChild s up i e).2.broken = true) := by
  unfold addChild
  dsimp only
  split
  · exact ⟨⟨⟨rfl, rfl, rfl⟩, rfl⟩, fun _ => rfl⟩
  · rename_i h c _
    refine ⟨Frm.trans (b := { s with parent := upd s.parent e (some i), heap := h, child := upd s.child i c })
      ⟨⟨rfl, rfl, rfl⟩, rfl⟩ (cacheAdd_frm _ _ _ _), ?_⟩
    rintro ⟨_, h⟩; cases h

theorem popEntry_frm (s : St) (up : Name → Name) (e : Nat) : Frm s (popEntry s up e).2 := by
  unfold popEntry
  cases s.parent e with
  | none => exact .refl s
  | some p =>
    dsimp only
    cases Rb.pop (nameOrd up) s.maxDirs s.heap (s.child p) e with
    | error er => exact ⟨⟨rfl, rfl, rfl⟩, rfl⟩
    | ok x =>
      obtain ⟨h, c⟩ := x
      have k := cacheDel_frm { s with heap := h, child := upd s.child p c } p (h.ent e).key
      dsimp only
      split <;> rename_i h1 <;> rw [h1] at k
      · exact ⟨⟨k.typ, k.sectors, k.per⟩, k.free⟩
      · exact ⟨⟨k.typ, k.sectors, k.per⟩, k.free⟩

theorem setName_frm (s : St) (e : Nat) (n : Name) : Frm s (setName s e n).2 := by
  unfold setName
  split <;> exact ⟨⟨rfl, rfl, rfl⟩, rfl⟩

theorem moveTo_frm (s : St) (up : Name → Name) (e d : Nat) (n : Name) : Frm s (moveTo s up e d n).2 := by
  have h := popEntry_frm s up e
  unfold moveTo
  split <;> rename_i h1 <;> rw [h1] at h
  · exact h
  · rename_i s1
    have k := setName_frm s1 e n
    split <;> rename_i h2 <;> rw [h2] at k
    · exact h.trans k
    · rename_i s2
      have l := (addChild_frm s2 up d e).1
      split <;> rename_i h3 <;> rw [h3] at l
      · exact (h.trans k).trans l
      · split
        · exact ((h.trans k).trans l).trans (cacheAdd_frm _ _ _ _)
        · exact (h.trans k).trans l

theorem move_frm (s : St) (up : Name → Name) (a b : Name) : Frm s (move s up a b).2 := by
  have h := find_frm s a
  unfold move
  split <;> rename_i h1 <;> rw [h1] at h
  · exact h
  · exact h
  · rename_i e s1
    dsimp only
    generalize (if b.getLast? = some '/' then b ++ (s1.heap.ent e).key else b) = b'
    have k := exist_frm s1 b'
    split <;> rename_i h2 <;> rw [h2] at k
    · exact h.trans k
    · exact h.trans k
    · split
      · exact h.trans k
      · rename_i s2 _
        have l := find_frm s2 ('/' :: join (split (strip b')).dropLast)
        split <;> rename_i h3 <;> rw [h3] at l
        · exact (h.trans k).trans l
        · exact (h.trans k).trans l
        · split
          · exact (h.trans k).trans l
          · exact ((h.trans k).trans l).trans (moveTo_frm _ _ _ _ _)

theorem walkTops_frm {f : St → Nat → Ret Visits} (hf : ∀ s i, Frm s (f s i).2) :
    ∀ (l : List Nat) (s : St), Frm s (walkTops f s l).2
  | [], s => .refl s
  | i :: r, s => by
    have h := hf s i
    unfold walkTops
    split <;> rename_i h1 <;> rw [h1] at h
    · exact h
    · rename_i s1
      have k := walkTops_frm hf r s1
      split <;> rename_i h2 <;> rw [h2] at k <;> exact h.trans k

theorem walkTop_frm : ∀ (n : Nat) (s : St) (i : Nat), Frm s (walkTop n s i).2
  | 0, s, _ => .refl s
  | n + 1, s, i => by
    have h := listDict_frm s i
    unfold walkTop
    split
    · exact .refl s
    · split
      · exact .refl s
      · split <;> rename_i h1 <;> rw [h1] at h
        · exact h
        · rename_i d s1
          dsimp only
          have k := walkTops_frm (walkTop_frm n) ((d.map (·.2)).filter (isDir s1)) s1
          split <;> rename_i h2 <;> rw [h2] at k <;> exact h.trans k

theorem visitUps_frm {f : St → Nat → Ret Visits} (hf : ∀ s i, Frm s (f s i).2) :
    ∀ (l : List (Name × Nat)) (s : St), Frm s (visitUps f s l).2
  | [], s => .refl s
  | p :: r, s => by
    have h := hf s p.2
    unfold visitUps
    split
    · split <;> rename_i h1 <;> rw [h1] at h
      · exact h
      · rename_i s1
        have k := visitUps_frm hf r s1
        split <;> rename_i h2 <;> rw [h2] at k <;> exact h.trans k
    · exact visitUps_frm hf r s

theorem visitUp_frm : ∀ (n : Nat) (s : St) (i : Nat), Frm s (visitUp n s i).2
  | 0, s, _ => .refl s
  | n + 1, s, i => by
    have h := listDict_frm s i
    unfold visitUp
    split <;> rename_i h1 <;> rw [h1] at h
    · exact h
    · rename_i d s1
      have k := visitUps_frm (visitUp_frm n) d s1
      split <;> rename_i h2 <;> rw [h2] at k <;> exact h.trans k

theorem walk_frm (s : St) (p : Name) (t : Bool) : Frm s (walk s p t).2 := by
  have h := find_frm s p
  unfold walk
  split <;> rename_i h1 <;> rw [h1] at h
  · exact h
  · exact h
  · split
    · exact h
    · split
      · exact h
      · split
        · exact h.trans (walkTop_frm _ _ _)
        · exact h.trans (visitUp_frm _ _ _)

/-- `create`: it takes the next id for the entry; if it raises nothing was taken, or the name was too
long, or the insertion has raised. -/
theorem create_frm (s : St) (up : Name → Name) (p : Name) (k : Nat) :
    (∀ e, (create s up p k).1 = .ok e → ∃ s1 s2, Frm s s1 ∧ nextId s1 = .ok (e, s2) ∧
      (create s up p k).2.free = s2.free ∧ (create s up p k).2.sectors = s2.sectors ∧
      (create s up p k).2.per = s2.per ∧ (create s up p k).2.typ = upd s2.typ e k) ∧
    (∀ er, (create s up p k).1 = .error er → Frm s (create s up p k).2 ∨ (create s up p k).2.broken = true ∨
      32 < units (basename p) ∧ ∃ s1 s2 i, exist s p = (.ok false, s1) ∧ find s1 (dirname p) = (.ok (some i), s2) ∧
        isDir s2 i = true) := by
  have h := exist_frm s p
  unfold create
  split <;> rename_i h1 <;> rw [h1] at h
  · exact ⟨(by intro e he; cases he), fun _ _ => .inl h⟩
  · exact ⟨(by intro e he; cases he), fun _ _ => .inl h⟩
  · rename_i s1
    have k1 := find_frm s1 (dirname p)
    split <;> rename_i h2 <;> rw [h2] at k1
    · exact ⟨(by intro e he; cases he), fun _ _ => .inl (h.trans k1)⟩
    · exact ⟨(by intro e he; cases he), fun _ _ => .inl (h.trans k1)⟩
    · rename_i i s2
      split
      · exact ⟨(by intro e he; cases he), fun _ _ => .inl (h.trans k1)⟩
      · rename_i hd
        split
        · exact ⟨(by intro e he; cases he), fun _ _ => .inl (h.trans k1)⟩
        · rename_i e s3 h3
          have k3 := setName_frm (fresh s3 e) e (basename p)
          split <;> rename_i h4 <;> rw [h4] at k3
          · refine ⟨(by intro e he; cases he), fun _ _ => .inr (.inr ?_)⟩
            unfold setName at h4
            split at h4
            · cases h4
            · rename_i hu
              exact ⟨by omega, s1, s2, i, h1, h2, by simpa using hd⟩
          · rename_i s4
            have k5 := (addChild_frm { s4 with typ := upd s4.typ e k } up i e)
            split <;> rename_i h5 <;> rw [h5] at k5
            · exact ⟨(by intro e he; cases he), fun _ _ => .inr (.inl (k5.2 ⟨_, rfl⟩))⟩
            · refine ⟨fun e' he => ?_, (by intro er he; cases he)⟩
              cases he
              refine ⟨s2, s3, h.trans k1, h3, ?_, ?_, ?_, ?_⟩
              · rw [k5.1.free]; exact k3.free
              · rw [k5.1.sectors]; exact k3.sectors
              · rw [k5.1.per]; exact k3.per
              · rw [k5.1.typ]
                show upd s4.typ e k = _
                rw [k3.typ]
                funext j
                simp only [fresh, upd]
                split <;> rfl

theorem freeEntry_frm0 (s : St) (e : Nat) : Frm0 s (freeEntry s e) := by
  unfold freeEntry
  dsimp only
  split <;> exact ⟨rfl, rfl, rfl⟩

theorem remove_frm0 (s : St) (up : Name → Name) (p : Name) :
    Frm0 s (remove s up p).2 ∧ (∀ er, (remove s up p).1 = .error er → Frm s (remove s up p).2) := by
  have h := find_frm s p
  unfold remove
  split <;> rename_i h1 <;> rw [h1] at h
  · exact ⟨h.toFrm0, fun _ _ => h⟩
  · exact ⟨h.toFrm0, fun _ _ => h⟩
  · rename_i e s1
    split
    · exact ⟨h.toFrm0, fun _ _ => h⟩
    · split
      · exact ⟨h.toFrm0, fun _ _ => h⟩
      · have k := popEntry_frm s1 up e
        split <;> rename_i h2 <;> rw [h2] at k
        · exact ⟨(h.trans k).toFrm0, fun _ _ => h.trans k⟩
        · exact ⟨(h.trans k).toFrm0.trans (freeEntry_frm0 _ _), (by intro er he; cases he)⟩

theorem freeAll_frm0 (l : List (Name × Nat)) : ∀ s : St, Frm0 s (l.foldl (fun s p => freeEntry s p.2) s) := by
  induction l with
  | nil => exact fun s => .refl s
  | cons a l ih => exact fun s => (freeEntry_frm0 s a.2).trans (ih _)

theorem rmBody_frm0 (s : St) (i : Nat) (d : List (Name × Nat)) : Frm0 s (rmBody s i d) := by
  unfold rmBody
  dsimp only
  exact Frm0.trans ((freeAll_frm0 _ s).trans (freeAll_frm0 _ _)) ⟨rfl, rfl, rfl⟩

theorem rmVisits_frm0 {f : St → Nat → Ret Unit} (hf : ∀ s i, Frm0 s (f s i).2) :
    ∀ (l : List (Name × Nat)) (s : St), Frm0 s (rmVisits f s l).2
  | [], s => .refl s
  | p :: r, s => by
    have h := hf s p.2
    unfold rmVisits
    split
    · split <;> rename_i h1 <;> rw [h1] at h
      · exact h
      · exact h.trans (rmVisits_frm0 hf r _)
    · exact rmVisits_frm0 hf r s

theorem rmVisit_frm0 : ∀ (n : Nat) (s : St) (i : Nat), Frm0 s (rmVisit n s i).2
  | 0, s, _ => .refl s
  | n + 1, s, i => by
    have h := (listDict_frm s i).toFrm0
    unfold rmVisit
    split <;> rename_i h1 <;> rw [h1] at h
    · exact h
    · rename_i d s1
      have k := rmVisits_frm0 (rmVisit_frm0 n) d s1
      split <;> rename_i h2 <;> rw [h2] at k
      · exact h.trans k
      · exact (h.trans k).trans (rmBody_frm0 _ _ _)

theorem rmtree_frm0 (s : St) (up : Name → Name) (p : Name) : Frm0 s (rmtree s up p).2 := by
  have h := (find_frm s p).toFrm0
  unfold rmtree
  split <;> rename_i h1 <;> rw [h1] at h
  · exact h
  · exact h
  · rename_i i s1
    split
    · exact h
    · split
      · exact h.trans (remove_frm0 _ _ _).1
      · have k := rmVisit_frm0 s1.maxDirs s1 i
        split <;> rename_i h2 <;> rw [h2] at k
        · exact h.trans k
        · exact (h.trans k).trans (remove_frm0 _ _ _).1

/-- Calls that only look, and `move`. -/
theorem step_frm (up : Name → Name) (s : St) : ∀ o : Op, (match o with
      | .create _ _ | .makedirs _ | .remove _ | .rmtree _ => False
      | _ => True) → Frm s (step up s o).2
  | .find p, _ => find_frm s p
  | .exist p, _ => exist_frm s p
  | .list p, _ => listPath_frm s p
  | .move a b, _ => move_frm s up a b
  | .walk p t, _ => walk_frm s p t

end Verif.Tree
